import Verif.Eustace.Merge.Props

/-! C112 for the whole of a day, and C113: names and files. -/

namespace Verif.Eustace.Merge

open Verif

noncomputable section

/-! ### A whole day -/

lemma upper_list_map {α β γ : Type} (f : β → β → γ) (g : α → β) (l : List α) :
    upper f (l.map g) = upper (fun a b => f (g a) (g b)) l := by
  induction l with
  | nil => rfl
  | cons a t ih => simp [upper, ih, Function.comp_def]

lemma upper_positions (R : Nat → Nat → ℝ) (ks : List Nat) :
    upper R ks = upper (fun i j => R (ks.getD i 0) (ks.getD j 0)) (List.range ks.length) := by
  rw [← upper_list_map R fun i => ks.getD i 0]
  congr 1
  apply List.ext_getElem (by simp)
  intro i h1 h2
  simp [List.getD, h1]

lemma positions_length {α : Type} (l : List α) (P : α → Prop) [DecidablePred P]
    [DecidablePred fun k : Nat => ∃ p, l[k]? = some p ∧ P p] :
    ((List.range l.length).filter fun k => decide (∃ p, l[k]? = some p ∧ P p)).length = (l.filter fun p => decide (P p)).length := by
  have h : ∀ (q : Nat → Bool), (∀ k (hk : k < l.length), q k = decide (P l[k])) →
      ((List.range l.length).filter q).length = (l.filter fun p => decide (P p)).length := by
    clear * -
    induction l with
    | nil => intro q _; rfl
    | cons a t ih =>
      intro q hq
      rw [List.length_cons, List.range_succ_eq_map, List.filter_cons, List.filter_map]
      have h0 := hq 0 (by simp)
      have h1 := ih (fun k => q (k + 1)) fun k hk => hq (k + 1) (Nat.succ_lt_succ hk)
      rw [List.filter_cons]
      simp only [List.getElem_cons_zero] at h0
      by_cases hP : P a
      · rw [if_pos (by rw [h0]; simpa using hP), if_pos (by simpa using hP), List.length_cons, List.length_cons, List.length_map]
        exact congrArg (· + 1) h1
      · rw [if_neg (by rw [h0]; simpa using hP), if_neg (by simpa using hP), List.length_map]
        exact h1
  apply h
  intro k hk
  simp [List.getElem?_eq_getElem hk]

/-- The sources of a list which take part, by their positions. -/
def positions (disc : Disc) (all : List (Option Path × Option Path)) : List Nat :=
  open Classical in (List.range all.length).filter fun k => decide (∃ p, all[k]? = some p ∧ There disc p.1)

/-- The correlations between those sources. -/
def between (disc : Disc) (all : List (Option Path × Option Path)) (R : Nat → Nat → ℝ) (i j : Nat) : ℝ :=
  R ((positions disc all).getD i 0) ((positions disc all).getD j 0)

open Classical in
/-- C112: the merging of a day, from names of which some may be missing: the sources whose files are there are merged, with the
correlations between them. -/
theorem c112_day (m : Merger) (disc : Disc) (all : List (Option Path × Option Path)) (Rs : List (Nat → Nat → ℝ))
    (hall : ∀ p ∈ all, There disc p.1 ↔ There disc p.2)
    (hidx : m.indexes = Rs.map fun R => upper R (List.range all.length))
    (first : Source) (rest : List Source) (day : ℝ) (size : Nat)
    (hkept : (all.filter fun p => decide (There disc p.1)) = (first :: rest).map fun x => (some x.main, some x.ancillary))
    (h : ∀ indexes, indexes = (Rs.map (between disc all)).map (fun R => upper R (List.range (first :: rest).length)) →
      Ready { m with indexes := indexes } disc (first :: rest) day size (Rs.map (between disc all)))
    (pre post pre' post' : List Char)
    (hm : first.main = pre ++ '_' :: first.label ++ post) (hm1 : OnlyAt ('_' :: first.label) pre post)
    (ha : first.ancillary = pre' ++ '_' :: first.label ++ post') (ha1 : OnlyAt ('_' :: first.label) pre' post')
    (hne : pre ++ post ≠ pre' ++ post')
    (hnew : ∀ x ∈ first :: rest, x.main ≠ pre ++ post ∧ x.main ≠ pre' ++ post' ∧ x.ancillary ≠ pre ++ post ∧
      x.ancillary ≠ pre' ++ post') :
    ∃ disc' M A, mergeSingleDay m disc (all.map Prod.fst) (all.map Prod.snd) (pre ++ post) (pre' ++ post') = (disc', .ok ()) ∧
      Merged m disc disc' (first :: rest) day size (Rs.map (between disc all)) (pre ++ post) (pre' ++ post') M A := by
  obtain ⟨c, h1, h2, h3, h4, h5⟩ := c112_clean disc all Rs hall
  have hlen : (positions disc all).length = (first :: rest).length := by
    unfold positions
    rw [positions_length all (fun p => There disc p.1), hkept, List.length_map]
  have hi : c.indexes = (Rs.map (between disc all)).map fun R => upper R (List.range (first :: rest).length) := by
    rw [h5, List.map_map]
    apply List.map_congr_left
    intro R _
    have h6 := upper_positions R (positions disc all)
    rw [hlen] at h6
    exact h6
  have hr := h c.indexes hi
  obtain ⟨disc', M, A, g1, g2⟩ := c112_merge _ disc first rest day size _ hr pre post pre' post' hm hm1 ha ha1 hne hnew
  have hc1 : c.mains.filterMap id = (first :: rest).map Source.main := by
    rw [h2, hkept, List.map_map, List.filterMap_map, ← List.filterMap_eq_map]
    rfl
  have hc2 : c.ancillaries.filterMap id = (first :: rest).map Source.ancillary := by
    rw [h3, hkept, List.map_map, List.filterMap_map, ← List.filterMap_eq_map]
    rfl
  have hc3 : c.sources = (first :: rest).length := by rw [h4, hkept, List.length_map]
  refine ⟨disc', M, A, ?_, ?_⟩
  · unfold mergeSingleDay
    rw [hidx, h1]
    simp only []
    rw [if_neg (by rw [hc3]; simp), hc1, hc2, hc3]
    have hcons : construct { m with indexes := c.indexes } ((first :: rest).map Source.main) ((first :: rest).map Source.ancillary)
        [(first :: rest).length] = .ok () := by
      unfold construct
      rw [if_neg (by simp), if_neg]
      have := hr.number
      rw [hi]
      simpa using this
    rw [hcons]
    simp only [mergeDays]
    rw [List.take_of_length_le (by simp), List.take_of_length_le (by simp), g1]
    simp only [List.append_nil]
    rw [if_pos]
    simp [check]
  · exact ⟨g2.main, g2.ancillary, g2.gone, g2.others, g2.day, g2.comment, g2.mean, g2.uncertainty, g2.only, g2.ancillaryFields,
      g2.originalMain, g2.originalAncillary⟩

/-- C112: a day without files is left alone. -/
theorem c112_nothing (m : Merger) (disc : Disc) (all : List (Option Path × Option Path)) (Rs : List (Nat → Nat → ℝ))
    (hidx : m.indexes = Rs.map fun R => upper R (List.range all.length))
    (h : ∀ p ∈ all, ¬ There disc p.1 ∧ ¬ There disc p.2) (outMain outAncillary : Path) :
    mergeSingleDay m disc (all.map Prod.fst) (all.map Prod.snd) outMain outAncillary = (disc, .ok ()) := by
  classical
  obtain ⟨c, h1, h2, h3, h4, h5⟩ := c112_clean disc all Rs fun p hp => by simp [(h p hp).1, (h p hp).2]
  unfold mergeSingleDay
  rw [hidx, h1]
  simp only []
  rw [if_pos]
  rw [h4, List.length_eq_zero_iff, List.filter_eq_nil_iff]
  intro p hp
  simpa using (h p hp).1

/-! ### One source -/

lemma relabel_one (text source : List Char) (disc : Disc) (p : Path) (d : Data) (h : disc p = some d) :
    relabel text source disc [p] =
      (Function.update (Function.update disc p none) (remove ('_' :: source) p) (some { d with comment := text }),
        .ok [remove ('_' :: source) p]) := by
  rw [relabel, h]
  simp only [relabel]
  unfold rename
  rw [Function.update_self, Function.update_idem]

/-- C113: the files of a single source are given names without the label and a comment which names the source; nothing else
changes. -/
theorem c113_single (m : Merger) (disc : Disc) (x : Source) (pre post pre' post' : List Char)
    (hd : disc x.main = some x.mainData) (ha : disc x.ancillary = some x.ancillaryData) (hl : HasLabel x.main x.label)
    (hm : x.main = pre ++ '_' :: x.label ++ post) (hm1 : OnlyAt ('_' :: x.label) pre post)
    (hn : x.ancillary = pre' ++ '_' :: x.label ++ post') (hn1 : OnlyAt ('_' :: x.label) pre' post')
    (hne : pre ++ post ≠ pre' ++ post') (h1 : x.ancillary ≠ x.main) (h2 : x.ancillary ≠ pre ++ post) (h3 : x.main ≠ pre' ++ post') :
    ∃ disc', mergeDay m disc [x.main] [x.ancillary] = (disc', .ok ([pre ++ post], [pre' ++ post'])) ∧
      disc' (pre ++ post) = some ⟨x.mainData.day, x.mainData.vars, m.commentPrefix ++ x.label ++ " retrievals.".toList⟩ ∧
      disc' (pre' ++ post') = some ⟨x.ancillaryData.day, x.ancillaryData.vars,
        m.commentPrefix ++ x.label ++ " retrievals.".toList⟩ ∧
      disc' x.main = none ∧ disc' x.ancillary = none ∧
      ∀ p, p ≠ pre ++ post → p ≠ pre' ++ post' → p ≠ x.main → p ≠ x.ancillary → disc' p = disc p := by
  have hrm := remove_only ('_' :: x.label) pre post (by simp) hm1
  have hra := remove_only ('_' :: x.label) pre' post' (by simp) hn1
  rw [← hm] at hrm
  rw [← hn] at hra
  have h4 : x.main ≠ pre ++ post := by
    intro e
    have := congrArg List.length (hm.symm.trans e)
    simp at this
    omega
  have h5 : x.ancillary ≠ pre' ++ post' := by
    intro e
    have := congrArg List.length (hn.symm.trans e)
    simp at this
    omega
  refine ⟨Function.update (Function.update (Function.update (Function.update disc x.main none) (pre ++ post)
    (some ⟨x.mainData.day, x.mainData.vars, m.commentPrefix ++ x.label ++ " retrievals.".toList⟩)) x.ancillary none) (pre' ++ post')
    (some ⟨x.ancillaryData.day, x.ancillaryData.vars, m.commentPrefix ++ x.label ++ " retrievals.".toList⟩), ?_, ?_, ?_, ?_, ?_, ?_⟩
  · unfold mergeDay
    rw [if_pos (by simp)]
    unfold updateSingle
    simp only [label_eq _ _ hl]
    rw [relabel_one _ _ _ _ _ hd, hrm]
    simp only []
    rw [relabel_one _ _ _ _ x.ancillaryData (by rw [Function.update_of_ne h2, Function.update_of_ne h1, ha]), hra]
  · rw [Function.update_of_ne hne, Function.update_of_ne h2.symm, Function.update_self]
  · rw [Function.update_self]
  · rw [Function.update_of_ne h3, Function.update_of_ne h1.symm, Function.update_of_ne h4, Function.update_self]
  · rw [Function.update_of_ne h5, Function.update_self]
  · intro p p1 p2 p3 p4
    rw [Function.update_of_ne p2, Function.update_of_ne p4, Function.update_of_ne p1, Function.update_of_ne p3]

/-! ### What goes wrong -/

lemma removeAll_gone (paths : List Path) : ∀ disc disc' : Disc, removeAll disc paths = (disc', .ok ()) →
    ∀ p, (disc p = none ∨ p ∈ paths) → disc' p = none := by
  induction paths with
  | nil =>
    intro disc disc' h p hp
    cases h
    simpa using hp
  | cons q rest ih =>
    intro disc disc' h p hp
    rw [removeAll] at h
    cases hd : disc q with
    | none => rw [hd] at h; cases h
    | some d =>
      rw [hd] at h
      refine ih _ _ h p ?_
      by_cases he : p = q
      · subst he
        exact Or.inl (Function.update_self ..)
      · rcases hp with hp | hp
        · exact Or.inl (by rw [Function.update_of_ne he, hp])
        · exact Or.inr ((List.mem_cons.1 hp).resolve_left he)

/-- Whatever is merged, no file of a source is left. -/
lemma mergeMany_gone (m : Merger) (disc disc' : Disc) (mains ancillaries : List Path) (out : List Path × List Path)
    (h : mergeMany m disc mains ancillaries = (disc', .ok out)) : ∀ p ∈ mains ++ ancillaries, disc' p = none := by
  unfold mergeMany at h
  split at h
  · cases h
  split at h
  · cases h
  split at h
  · dsimp only at h
    split at h
    · cases h
    split at h
    · cases h
    split at h
    · cases h
    · next hr =>
      cases h
      intro p hp
      exact removeAll_gone _ _ _ hr p (Or.inr hp)
  · cases h

/-- Files named x and y of one instrument each, whose merged file has the name of the second. -/
def namedFirst : Path := "tas_ocean_eustace_0_A_B_1.nc".toList
def namedSecond : Path := "tas_ocean_eustace_0_B_1.nc".toList

/-- C113 fails: if taking the label out of the name of the first file gives the name of another, then the merged file is written
over that one and is deleted with the files of the sources, and merging reports success. -/
theorem c113_overwrite_violated :
    (∃ l l', HasLabel namedFirst l ∧ HasLabel namedSecond l' ∧ l ≠ l' ∧ remove ('_' :: l) namedFirst = namedSecond) ∧
    ∀ (m : Merger) (disc disc' : Disc) (ancillaries : List Path) (out' : List Path),
      mergeMany m disc [namedFirst, namedSecond] ancillaries = (disc', .ok ([namedSecond], out')) → disc' namedSecond = none := by
  constructor
  · refine ⟨"A".toList, "B".toList, ?_, ?_, by decide, ?_⟩
    · exact ⟨[], "tas".toList, "ocean".toList, "eustace".toList, "0".toList, "_B_1.nc".toList, by decide, Or.inl rfl,
        Or.inr (by decide), by decide, by decide⟩
    · exact ⟨[], "tas".toList, "ocean".toList, "eustace".toList, "0".toList, "_1.nc".toList, by decide, Or.inl rfl,
        Or.inr (by decide), by decide, by decide⟩
    · exact remove_only "_A".toList "tas_ocean_eustace_0".toList "_B_1.nc".toList (by decide) (onlyAt_of_all _ _ _ (by decide))
  · intro m disc disc' ancillaries out' h
    exact mergeMany_gone _ _ _ _ _ _ h _ (by simp)

/-- C113: a name made which has the length of the name expected passes the check just when it is that name. -/
theorem c113_check (p expected : Path) (h : p.length = expected.length) : check [p] expected = true ↔ p = expected := by
  unfold check
  rw [List.all_cons, List.all_nil, Bool.and_true, decide_eq_true_iff]
  constructor
  · intro h1
    exact h1.eq_of_length h
  · rintro rfl
    exact List.infix_rfl

/-- C113 fails: the check of names looks for the name made within the name expected, so a file in another place passes. -/
theorem c113_check_violated (prefix_ p : Path) (h : prefix_ ≠ []) : check [p] (prefix_ ++ p) = true ∧ p ≠ prefix_ ++ p := by
  constructor
  · unfold check
    rw [List.all_cons, List.all_nil, Bool.and_true, decide_eq_true_iff]
    exact (List.suffix_append _ _).isInfix
  · intro e
    have := congrArg List.length e
    rw [List.length_append] at this
    exact h (List.length_eq_zero_iff.1 (by omega))

/-- C113 fails: a day without sources among several days ends the merging with an error, which says that the dates differ. -/
theorem c113_empty_violated (m : Merger) (disc : Disc) (rest : List Nat) (mains ancillaries : List Path) :
    mergeDays m disc (0 :: rest) mains ancillaries = (disc, .error .valueError) := by
  simp [mergeDays, mergeDay, mergeMany, mergeFiles, openAll, commonDay]

lemma uncertaintyFields_lengths (alwaysMask : Bool) (handles : List Data) (names : List Name) :
    ∀ (subs : List (List ℝ)) (r r' : Results), uncertaintyFields alwaysMask handles names subs r = .ok r' →
      names.length ≤ subs.length ∧
      ∀ k < names.length, 2 * (subs.getD k []).length = handles.length * (handles.length - 1) := by
  induction names with
  | nil => intro subs r r' _; exact ⟨by simp, by simp⟩
  | cons name rest ih =>
    intro subs r r' h
    cases subs with
    | nil => rw [uncertaintyFields] at h; cases h
    | cons sub subs =>
      rw [uncertaintyFields] at h
      cases h1 : uncertaintyField alwaysMask handles name sub with
      | error e => rw [h1] at h; cases h
      | ok f =>
        rw [h1] at h
        obtain ⟨h2, h3⟩ := ih _ _ _ h
        refine ⟨by simpa using h2, ?_⟩
        intro k hk
        cases k with
        | zero =>
          by_contra hn
          unfold uncertaintyField at h1
          rw [triangular_wrong _ _ (fun e => hn (by simpa using e.symm))] at h1
          cases h1
        | succ k => simpa using h3 k (by simpa using hk)

lemma openAll_length (disc : Disc) (paths : List Path) : ∀ ds, openAll disc paths = .ok ds → ds.length = paths.length := by
  induction paths with
  | nil => intro ds h; cases h; rfl
  | cons p rest ih =>
    intro ds h
    rw [openAll] at h
    cases h1 : disc p with
    | none => rw [h1] at h; cases h
    | some d =>
      rw [h1] at h
      cases h2 : openAll disc rest with
      | error e => simp only [h2] at h; cases h
      | ok ds' =>
        simp only [h2] at h
        cases h
        rw [List.length_cons, List.length_cons, ih _ h2]

lemma mergeFiles_lengths (m : Merger) (disc : Disc) (mains ancillaries : List Path) (r : ℝ × Results)
    (h : mergeFiles m disc mains ancillaries = .ok r) :
    ∀ k < m.ancillaries.length, 2 * (m.indexes.getD k []).length = ancillaries.length * (ancillaries.length - 1) := by
  unfold mergeFiles at h
  split at h
  · cases h
  split at h
  · cases h
  next ha =>
  split at h
  · cases h
  split at h
  · cases h
  split at h
  · cases h
  split at h
  · cases h
  split at h
  · cases h
  split at h
  · cases h
  next hu =>
  rw [← openAll_length disc ancillaries _ ha]
  exact (uncertaintyFields_lengths _ _ _ _ _ _ hu).2

/-- C112 fails for an object which merges several days: it has one list of correlations for each field, so if two days have
different numbers of sources (more than one each), it cannot merge both. -/
theorem c112_days_violated (m : Merger) (disc disc' : Disc) (mains ancillaries mains' ancillaries' : List Path)
    (hf : m.ancillaries ≠ []) (h1 : 2 ≤ mains.length) (h2 : 2 ≤ mains'.length) (h3 : ancillaries.length = mains.length)
    (h4 : ancillaries'.length = mains'.length) (hne : mains.length ≠ mains'.length) :
    (∃ e, (mergeDay m disc mains ancillaries).2 = .error e) ∨ ∃ e, (mergeDay m disc' mains' ancillaries').2 = .error e := by
  have key : ∀ (disc : Disc) (mains ancillaries : List Path), 2 ≤ mains.length → ancillaries.length = mains.length →
      (¬ ∃ e, (mergeDay m disc mains ancillaries).2 = .error e) →
      2 * (m.indexes.getD 0 []).length = mains.length * (mains.length - 1) := by
    intro disc mains ancillaries h1 h3 h
    unfold mergeDay at h
    rw [if_neg (by omega)] at h
    cases hr : mergeFiles m disc mains ancillaries with
    | error e => exact absurd ⟨e, by unfold mergeMany; rw [hr]⟩ h
    | ok r =>
      rw [← h3]
      exact mergeFiles_lengths m disc mains ancillaries r hr 0 (List.length_pos_iff.2 hf)
  by_contra hn
  rw [not_or] at hn
  have e1 := key disc mains ancillaries h1 h3 hn.1
  have e2 := key disc' mains' ancillaries' h2 h4 hn.2
  rw [e1] at e2
  obtain ⟨a, ha⟩ := Nat.exists_eq_add_of_le h1
  obtain ⟨b, hb⟩ := Nat.exists_eq_add_of_le h2
  rw [ha, hb, show 2 + a - 1 = 1 + a by omega, show 2 + b - 1 = 1 + b by omega] at e2
  rcases Nat.lt_trichotomy a b with h | h | h
  · nlinarith
  · exact hne (by rw [ha, hb, h])
  · nlinarith

/-- C112 fails with the netCDF4 library before 1.4: a source without missing cells is read as an array without a fill value, and
nothing is merged. -/
theorem c112_complete_violated (m : Merger) (disc : Disc) (sources : List Source) (day : ℝ) (size : Nat) (Rs : List (Nat → Nat → ℝ))
    (h : Ready { m with alwaysMask := true } disc sources day size Rs) (hm : m.alwaysMask = false) (name : Name) (names : List Name)
    (hn : m.primaries = name :: names) (first : Source) (rest : List Source) (hs : sources = first :: rest)
    (hc : none ∉ fieldOf name first.mainData) :
    mergeDay m disc (sources.map Source.main) (sources.map Source.ancillary) = (disc, .error .attributeError) := by
  have hu : ∀ l ∈ sources.map Source.label, '_' ∉ l := by
    intro l hl
    obtain ⟨x, hx, rfl⟩ := List.mem_map.1 hl
    exact (h.main x hx).2.2.clean
  have hne : sources ≠ [] := by rw [hs]; simp
  have hnd := List.nodup_append.1 h.names
  have h1 := openAll_ok disc sources Source.main Source.mainData fun x hx => (h.main x hx).1
  have h2 := openAll_ok disc sources Source.ancillary Source.ancillaryData fun x hx => (h.ancillary x hx).1
  have h3 := commonDay_ok (sources.map Source.mainData ++ sources.map Source.ancillaryData) day (by simpa using hne) (by
    intro d hd
    rcases List.mem_append.1 hd with hd | hd
    · obtain ⟨x, hx, rfl⟩ := List.mem_map.1 hd
      exact (h.main x hx).2.1
    · obtain ⟨x, hx, rfl⟩ := List.mem_map.1 hd
      exact (h.ancillary x hx).2.1)
  have hz : ∀ (path : Source → Path) (data : Source → Data) (P : Path × Data → Prop), (∀ x ∈ sources, P (path x, data x)) →
      ∀ e ∈ (sources.map path).zip (sources.map data), P e := by
    intro path data P hP e he
    rw [List.zip_map'] at he
    obtain ⟨x, hx, rfl⟩ := List.mem_map.1 he
    exact hP x hx
  obtain ⟨r1, a1, _, _⟩ := appendOriginal_ok (m.primaries ++ m.uncertainties) hnd.1
    ((sources.map Source.main).zip (sources.map Source.mainData)) (sources.map Source.label) (fun _ => none) h.labels hu
    ((forall₂_zip _ _ _ _).2 fun x hx => label_eq _ _ (h.main x hx).2.2)
    (hz _ _ _ fun x hx name hn => by
      obtain ⟨f, hf, _⟩ := h.mainFields name hn x.mainData (List.mem_map_of_mem hx)
      exact ⟨f, hf⟩)
  obtain ⟨r2, b1, _, _⟩ := appendOriginal_ok m.ancillaries hnd.2.1
    ((sources.map Source.ancillary).zip (sources.map Source.ancillaryData)) (sources.map Source.label) r1 h.labels hu
    ((forall₂_zip _ _ _ _).2 fun x hx => label_eq _ _ (h.ancillary x hx).2.2)
    (hz _ _ _ fun x hx name hn => by
      obtain ⟨f, hf, _⟩ := h.ancillaryFields name hn x.ancillaryData (List.mem_map_of_mem hx)
      exact ⟨f, hf⟩)
  obtain ⟨f, hf, _⟩ := h.mainFields name (by show name ∈ m.primaries ++ m.uncertainties; rw [hn]; simp) first.mainData
    (List.mem_map_of_mem (by rw [hs]; simp))
  have hfield : fieldOf name first.mainData = f := by unfold fieldOf; rw [hf]; rfl
  rw [hfield] at hc
  have c1 : meanFields m.alwaysMask (sources.map Source.mainData) m.primaries r2 = .error .attributeError := by
    rw [hn, hs, meanFields]
    unfold meanField
    rw [List.map_cons, stack]
    unfold extract lookup
    rw [hf]
    simp only []
    rw [if_neg]
    rw [hm, Bool.false_or, List.any_eq_true]
    rintro ⟨x, hx, hx'⟩
    cases x with
    | none => exact hc hx
    | some y => cases hx'
  have hmany := h.many
  unfold mergeDay
  rw [if_neg (by rw [List.length_map]; omega)]
  unfold mergeMany mergeFiles
  rw [h1]
  simp only [h2, h3, a1, b1, c1]

/-- Three instruments, of which the second has no primary file and the third no ancillary file. -/
def mixed : List (Option Path × Option Path) :=
  [(some "m1".toList, some "a1".toList), (some "m2".toList, some "a2".toList), (some "m3".toList, some "a3".toList)]

/-- C112 fails: numbers of primary and ancillary files are compared, but not whose they are, so the primary file of one instrument
can be merged beside the ancillary file of another. -/
theorem c112_mismatch_violated (d : Data) :
    ∃ disc c, clean disc (mixed.map Prod.fst) (mixed.map Prod.snd) [] = .ok c ∧ c.sources = 2 ∧
      c.mains = [some "m1".toList, some "m3".toList] ∧ c.ancillaries = [some "a1".toList, some "a2".toList] := by
  refine ⟨fun p => if p = "m1".toList ∨ p = "m3".toList ∨ p = "a1".toList ∨ p = "a2".toList then some d else none,
    ⟨_, _, 2, []⟩, ?_, rfl, rfl, rfl⟩
  rw [clean_eq]
  simp [mixed, isFile, reduce]

/-! ### Ranges of correlation -/

/-- C113: each variable which the ranges name takes the scales given for its name; others keep theirs. -/
theorem c113_ranges (r : Ranges) (h : r.keys.Nodup) (hl : r.lengths.length = r.keys.length) (ht : r.times.length = r.keys.length)
    (u v : List Char) (hu : r.units = [u, v]) (name : Name) (old : Option Scales) :
    (∀ k (hk : k < r.keys.length), r.keys[k] = name → r.update name old =
      .ok (some ⟨r.lengths[k], r.times[k], u, v⟩)) ∧
    (name ∉ r.keys → r.update name old = .ok old) := by
  constructor
  · intro k hk hname
    unfold Ranges.update
    rw [if_pos (hname ▸ List.getElem_mem hk)]
    have hfind : r.find name = some (r.lengths[k], r.times[k]) := by
      unfold Ranges.find
      have hmem : (name, r.lengths[k], r.times[k]) ∈ (r.keys.zip (r.lengths.zip r.times)).reverse := by
        rw [List.mem_reverse, List.mem_iff_getElem]
        exact ⟨k, by simp; omega, by simp [hname]⟩
      have huniq : ∀ e ∈ (r.keys.zip (r.lengths.zip r.times)).reverse, e.1 = name → e = (name, r.lengths[k], r.times[k]) := by
        intro e he hen
        rw [List.mem_reverse] at he
        obtain ⟨i, hi, rfl⟩ := List.getElem_of_mem he
        simp only [List.getElem_zip] at hen ⊢
        have hi' : i < r.keys.length := by simp at hi; omega
        have : i = k := (List.Nodup.getElem_inj_iff h).1 (hen.trans hname.symm)
        subst this
        rw [hname]
      cases hf : (r.keys.zip (r.lengths.zip r.times)).reverse.find? (fun e => e.1 == name) with
      | none =>
        have := List.find?_eq_none.1 hf _ hmem
        simp at this
      | some e =>
        have h1 := List.find?_some hf
        rw [huniq e (List.mem_of_find?_eq_some hf) (by simpa using h1)]
        rfl
    rw [hfind]
    simp only [hu]
  · intro hn
    unfold Ranges.update
    rw [if_neg hn]

/-- The names of the ancillary variables of the ocean, definitions.py 360-408, which ocean.json (lines 310-319 of
src/roses/satstace/ocean.json) lists. -/
def oceanVariables : List Name :=
  ["tas_unc_rand".toList, "tas_unc_corr_sat".toList, "tas_unc_sys".toList, "tas_unc_corr_mod".toList, "tas_unc_sys_mod".toList,
    "tas_unc_parameter_0".toList, "tas_unc_parameter_1".toList, "tas_unc_parameter_2".toList, "tas_unc_parameter_3".toList,
    "tas_unc_parameter_4".toList]

/-- The ranges of ocean.json, lines 320-326. -/
def oceanRanges : Ranges :=
  ⟨["unc_corr_tas".toList, "unc_corr2_tas".toList], ["km".toList, "day".toList], [100, 1000], [1, 3]⟩

/-- C113 fails for the configuration of the ocean: the ranges name variables which do not exist, so none of the variables takes any
of the scales given. -/
theorem c113_ranges_violated (name : Name) (hn : name ∈ oceanVariables) (old : Option Scales) :
    oceanRanges.update name old = .ok old := by
  unfold Ranges.update
  rw [if_neg]
  unfold oceanVariables at hn
  simp only [List.mem_cons, List.not_mem_nil, or_false] at hn
  rcases hn with rfl | rfl | rfl | rfl | rfl | rfl | rfl | rfl | rfl | rfl <;> (unfold oceanRanges; decide)

/-! ### A case -/

/-- Two instruments with two cells each: both have data in the first cell, and the second cell is missing in one. -/
def caseMain (x y : ℝ) (z : Option ℝ) : Data :=
  ⟨60000, fun n => if n = "tas".toList then some [some x, z] else if n = "tasuncertainty".toList then some [some y, z] else none, []⟩
def caseAncillary (y : ℝ) (z : Option ℝ) : Data :=
  ⟨60000, fun n => if n = "tas_unc_sys".toList then some [some y, z] else none, []⟩
def caseFirst : Source :=
  ⟨"o/tas_ocean_eustace_0_AATSR_1.nc".toList, "o/ancillary_ocean_eustace_0_AATSR_1.nc".toList, "AATSR".toList,
    caseMain 290 3 (some 1), caseAncillary 3 (some 1)⟩
def caseSecond : Source :=
  ⟨"o/tas_ocean_eustace_0_ATSR2_1.nc".toList, "o/ancillary_ocean_eustace_0_ATSR2_1.nc".toList, "ATSR2".toList,
    caseMain 292 4 none, caseAncillary 4 none⟩
def caseMerger : Merger :=
  ⟨["tas".toList], ["tasuncertainty".toList], ["tas_unc_sys".toList], [[1]], "from ".toList, true⟩
def caseDisc : Disc := fun p =>
  if p = caseFirst.main then some caseFirst.mainData else if p = caseFirst.ancillary then some caseFirst.ancillaryData
  else if p = caseSecond.main then some caseSecond.mainData else if p = caseSecond.ancillary then some caseSecond.ancillaryData
  else none

lemma case_ready : Ready caseMerger caseDisc [caseFirst, caseSecond] 60000 2 [fun _ _ => 1] := by
  have l1 : HasLabel caseFirst.main caseFirst.label := ⟨"o/".toList, "tas".toList, "ocean".toList, "eustace".toList, "0".toList,
    "_1.nc".toList, by decide, Or.inr (by decide), Or.inr (by decide), by decide, by decide⟩
  have l2 : HasLabel caseFirst.ancillary caseFirst.label := ⟨"o/".toList, "ancillary".toList, "ocean".toList, "eustace".toList,
    "0".toList, "_1.nc".toList, by decide, Or.inr (by decide), Or.inr (by decide), by decide, by decide⟩
  have l3 : HasLabel caseSecond.main caseSecond.label := ⟨"o/".toList, "tas".toList, "ocean".toList, "eustace".toList, "0".toList,
    "_1.nc".toList, by decide, Or.inr (by decide), Or.inr (by decide), by decide, by decide⟩
  have l4 : HasLabel caseSecond.ancillary caseSecond.label := ⟨"o/".toList, "ancillary".toList, "ocean".toList, "eustace".toList,
    "0".toList, "_1.nc".toList, by decide, Or.inr (by decide), Or.inr (by decide), by decide, by decide⟩
  have n1 : caseFirst.ancillary ≠ caseFirst.main := by decide
  have n2 : caseSecond.main ≠ caseFirst.main := by decide
  have n3 : caseSecond.main ≠ caseFirst.ancillary := by decide
  have n4 : caseSecond.ancillary ≠ caseFirst.main := by decide
  have n5 : caseSecond.ancillary ≠ caseFirst.ancillary := by decide
  have n6 : caseSecond.ancillary ≠ caseSecond.main := by decide
  constructor
  · simp
  · intro x hx
    simp only [List.mem_cons, List.not_mem_nil, or_false] at hx
    rcases hx with rfl | rfl
    · exact ⟨by simp [caseDisc], rfl, l1⟩
    · exact ⟨by simp [caseDisc, n2, n3], rfl, l3⟩
  · intro x hx
    simp only [List.mem_cons, List.not_mem_nil, or_false] at hx
    rcases hx with rfl | rfl
    · exact ⟨by simp [caseDisc, n1], rfl, l2⟩
    · exact ⟨by simp [caseDisc, n4, n5, n6], rfl, l4⟩
  · decide
  · decide
  · intro name hn d hd
    simp only [caseMerger, List.cons_append, List.nil_append, List.mem_cons, List.not_mem_nil, or_false] at hn
    simp only [List.map_cons, List.map_nil, List.mem_cons, List.not_mem_nil, or_false] at hd
    rcases hn with rfl | rfl <;> rcases hd with rfl | rfl <;> exact ⟨_, rfl, rfl, Or.inl rfl⟩
  · intro name hn d hd
    simp only [caseMerger, List.mem_cons, List.not_mem_nil, or_false] at hn
    simp only [List.map_cons, List.map_nil, List.mem_cons, List.not_mem_nil, or_false] at hd
    rcases hn with rfl
    rcases hd with rfl | rfl <;> exact ⟨_, rfl, rfl, Or.inl rfl⟩
  · decide
  · decide
  · intro R hR
    rw [List.mem_singleton] at hR
    subst hR
    exact ⟨fun _ _ => rfl, fun _ _ _ _ => rfl⟩
  · rfl
  · rfl

example : ∃ disc' M A, mergeDay caseMerger caseDisc ([caseFirst, caseSecond].map Source.main)
      ([caseFirst, caseSecond].map Source.ancillary) =
        (disc', .ok (["o/tas_ocean_eustace_0_1.nc".toList], ["o/ancillary_ocean_eustace_0_1.nc".toList])) ∧
    Merged caseMerger caseDisc disc' [caseFirst, caseSecond] 60000 2 [fun _ _ => 1] "o/tas_ocean_eustace_0_1.nc".toList
      "o/ancillary_ocean_eustace_0_1.nc".toList M A :=
  c112_merge caseMerger caseDisc caseFirst [caseSecond] 60000 2 _ case_ready "o/tas_ocean_eustace_0".toList "_1.nc".toList
    "o/ancillary_ocean_eustace_0".toList "_1.nc".toList (by decide) (onlyAt_of_all _ _ _ (by decide)) (by decide)
    (onlyAt_of_all _ _ _ (by decide)) (by decide) (by decide)

end

end Verif.Eustace.Merge
