import Verif.Eustace.Diagnostic.Model

/-! Names of diagnostic fields, and how a call changes the list of fields. -/

namespace Verif.Eustace.Diagnostic

open Verif Verif.Eustace.RawBinary Verif.Eustace.ObsSource Verif.Eustace.Satgrid

/-- The names of diagnostics. -/
def diagnostics : List String :=
  ["count", "observation_max", "observation_min", "uncertainty_max", "uncertainty_min", "observation_weightedsum", "precision_sum"]

theorem initialValues_names : initialValues.map Prod.fst = diagnostics := rfl

/-- No name of a diagnostic is the end of another. -/
theorem diagnostics_suffix : ∀ d ∈ "observation_weightedmean" :: diagnostics, ∀ d' ∈ "observation_weightedmean" :: diagnostics,
    d.toList <:+ d'.toList → d = d' := by
  decide

/-- Two strings which end after their last underscore with the same characters. -/
theorem split_last (c : Char) (a a' b b' : List Char) (h : a ++ c :: b = a' ++ c :: b') (hb : c ∉ b) (hb' : c ∉ b') :
    a = a' ∧ b = b' := by
  have key : ∀ (b b' : List Char) (a a' : List Char), c ∉ b → c ∉ b' → b ++ c :: a = b' ++ c :: a' → b = b' ∧ a = a' := by
    intro b
    induction b with
    | nil =>
      intro b' a a' _ hb' h
      cases b' with
      | nil => exact ⟨rfl, by simpa using h⟩
      | cons x xs =>
        simp only [List.nil_append, List.cons_append, List.cons.injEq] at h
        exact absurd (by rw [h.1]; simp) hb'
    | cons y ys ih =>
      intro b' a a' hb hb' h
      cases b' with
      | nil =>
        simp only [List.nil_append, List.cons_append, List.cons.injEq] at h
        exact absurd (by rw [← h.1]; simp) hb
      | cons x xs =>
        simp only [List.cons_append, List.cons.injEq] at h
        obtain ⟨h1, h2⟩ := ih xs a a' (fun m => hb (List.mem_cons_of_mem _ m)) (fun m => hb' (List.mem_cons_of_mem _ m)) h.2
        exact ⟨by rw [h.1, h1], h2⟩
  have hr := congrArg List.reverse h
  simp only [List.reverse_append, List.reverse_cons, List.append_assoc, List.singleton_append] at hr
  obtain ⟨h1, h2⟩ := key b.reverse b'.reverse a.reverse a'.reverse (by simpa using hb) (by simpa using hb') hr
  exact ⟨List.reverse_injective h2, List.reverse_injective h1⟩

/-- Names of fields determine their source, observable and diagnostic, if observables have no underscore. -/
theorem fieldName_inj (s s' o o' d d' : String) (ho : '_' ∉ o.toList) (ho' : '_' ∉ o'.toList)
    (hd : d ∈ "observation_weightedmean" :: diagnostics) (hd' : d' ∈ "observation_weightedmean" :: diagnostics)
    (h : fieldName s o d = fieldName s' o' d') : s = s' ∧ o = o' ∧ d = d' := by
  unfold fieldName at h
  have hl := congrArg String.toList h
  simp only [String.toList_append] at hl
  have hdd : d = d' := by
    have h1 : d.toList <:+ (s.toList ++ "_".toList ++ o.toList ++ "_".toList) ++ d.toList := List.suffix_append _ _
    have h2 : d'.toList <:+ (s.toList ++ "_".toList ++ o.toList ++ "_".toList) ++ d.toList := by
      rw [hl]
      exact List.suffix_append _ _
    rcases List.suffix_or_suffix_of_suffix h1 h2 with h3 | h3
    · exact diagnostics_suffix d hd d' hd' h3
    · exact (diagnostics_suffix d' hd' d hd h3).symm
  subst hdd
  have h3 : s.toList ++ "_".toList ++ o.toList = s'.toList ++ "_".toList ++ o'.toList := by
    have := List.append_cancel_right hl
    exact List.append_cancel_right this
  have hu : "_".toList = ['_'] := rfl
  rw [hu, List.append_assoc, List.append_assoc] at h3
  obtain ⟨h4, h5⟩ := split_last '_' _ _ _ _ h3 ho ho'
  exact ⟨String.toList_inj.1 h4, String.toList_inj.1 h5, rfl⟩

theorem getField_name {fields : List Field} {name : String} {f : Field} (h : getField fields name = some f) : f.name = name := by
  have := List.find?_some h
  simpa using this

theorem getField_append (fields : List Field) (f : Field) (m : String) :
    getField (fields ++ [f]) m = match getField fields m with
      | some g => some g
      | none => if f.name = m then some f else none := by
  unfold getField
  rw [List.find?_append]
  cases h : List.find? (fun f => f.name == m) fields with
  | some g => rfl
  | none =>
    by_cases hf : f.name = m <;> simp [hf]

theorem getField_alter (name : String) (change : Field → Field) (hn : ∀ f, (change f).name = f.name) (fields : List Field)
    (m : String) : getField (alter name change fields) m =
      if m = name then (getField fields m).map change else getField fields m := by
  induction fields with
  | nil => unfold alter getField; simp
  | cons f rest ih =>
    unfold alter
    by_cases hf : f.name = name
    · rw [if_pos (by simpa using hf)]
      unfold getField
      by_cases hm : m = name
      · rw [if_pos hm, List.find?_cons_of_pos (by rw [hn, hf, hm]; simp), List.find?_cons_of_pos (by rw [hf, hm]; simp)]
        rfl
      · rw [if_neg hm, List.find?_cons_of_neg (by rw [hn, hf]; simpa using fun h => hm h.symm),
          List.find?_cons_of_neg (by rw [hf]; simpa using fun h => hm h.symm)]
    · rw [if_neg (by simpa using hf)]
      by_cases hfm : f.name = m
      · have hmn : m ≠ name := fun h => hf (hfm.trans h)
        rw [if_neg hmn]
        unfold getField
        rw [List.find?_cons_of_pos (by simpa using hfm), List.find?_cons_of_pos (by simpa using hfm)]
      · have h1 : ∀ l : List Field, getField (f :: l) m = getField l m := fun l =>
          List.find?_cons_of_neg (by simpa using hfm)
        rw [h1, h1, ih]

theorem getField_getOrCreate (fields : List Field) (name : String) (initial : ℝ) (m : String) :
    getField (getOrCreate fields name initial) m =
      if m = name then some ((getField fields m).getD ⟨name, fun _ => initial, fun _ => true⟩) else getField fields m := by
  unfold getOrCreate
  cases h : getField fields name with
  | some f =>
    by_cases hm : m = name
    · rw [if_pos hm, hm, h]
      rfl
    · rw [if_neg hm]
  | none =>
    show getField (fields ++ [_]) m = _
    rw [getField_append]
    by_cases hm : m = name
    · subst hm
      rw [if_pos rfl, h]
      simp
    · rw [if_neg hm]
      cases hg : getField fields m with
      | some g => rfl
      | none => simp [Ne.symm hm]

theorem getField_createField (source : String) (i : Input) (fields : List Field) (d : String × ℝ) (m : String) :
    getField (createField source i fields d) m =
      if m = fieldName source i.observable d.1 then
        some (aggregated i d.1 (uncover i.indices ((getField fields m).getD ⟨m, fun _ => d.2, fun _ => true⟩)))
      else getField fields m := by
  unfold createField
  rw [getField_alter _ (fun f => aggregated i d.1 (uncover i.indices f)) (fun f => rfl), getField_getOrCreate]
  by_cases hm : m = fieldName source i.observable d.1
  · rw [if_pos hm, if_pos hm, if_pos hm, ← hm]
    rfl
  · rw [if_neg hm, if_neg hm, if_neg hm]

theorem fieldName_diagnostic (s o d d' : String) (h : fieldName s o d = fieldName s o d') : d = d' := by
  unfold fieldName at h
  have hl := congrArg String.toList h
  simp only [String.toList_append] at hl
  exact String.toList_inj.1 (List.append_cancel_left hl)

theorem getField_fold (source : String) (i : Input) (l : List (String × ℝ)) (hl : (l.map Prod.fst).Nodup) (fields : List Field)
    (m : String) : getField (l.foldl (createField source i) fields) m =
      match l.find? fun d => m == fieldName source i.observable d.1 with
      | some d => some (aggregated i d.1 (uncover i.indices ((getField fields m).getD ⟨m, fun _ => d.2, fun _ => true⟩)))
      | none => getField fields m := by
  induction l generalizing fields with
  | nil => rfl
  | cons d rest ih =>
    simp only [List.map_cons, List.nodup_cons] at hl
    rw [List.foldl_cons, ih hl.2, getField_createField]
    by_cases hm : m = fieldName source i.observable d.1
    · have hnone : (rest.find? fun d => m == fieldName source i.observable d.1) = none := by
        rw [List.find?_eq_none]
        intro e he hme
        have h1 : m = fieldName source i.observable e.1 := by simpa using hme
        have h2 := fieldName_diagnostic _ _ _ _ (hm.symm.trans h1)
        exact hl.1 (List.mem_map.2 ⟨e, he, h2.symm⟩)
      rw [hnone, List.find?_cons_of_pos (by simpa using hm), if_pos hm]
    · rw [List.find?_cons_of_neg (by simpa using hm), if_neg hm]

theorem diagnostics_nodup : diagnostics.Nodup := by decide

/-- A call changes the fields of its source and observable. -/
theorem getField_call (source : String) (i : Input) (fields : List Field) (d : String × ℝ) (hd : d ∈ initialValues) :
    getField (initialValues.foldl (createField source i) fields) (fieldName source i.observable d.1) =
      some (aggregated i d.1 (uncover i.indices ((getField fields (fieldName source i.observable d.1)).getD
        ⟨fieldName source i.observable d.1, fun _ => d.2, fun _ => true⟩))) := by
  rw [getField_fold source i initialValues diagnostics_nodup]
  cases hf : initialValues.find? fun e => fieldName source i.observable d.1 == fieldName source i.observable e.1 with
  | none =>
    rw [List.find?_eq_none] at hf
    exact absurd (by simp) (hf d hd)
  | some e =>
    have h1 := fieldName_diagnostic _ _ _ _ (by simpa using List.find?_some hf)
    have h2 := List.mem_of_find?_eq_some hf
    have h3 : e = d := by
      have hn := diagnostics_nodup
      rw [← initialValues_names] at hn
      exact (List.inj_on_of_nodup_map hn) h2 hd h1.symm
    rw [h3]

/-- A call leaves all other fields alone. -/
theorem getField_other (source : String) (i : Input) (fields : List Field) (m : String)
    (h : ∀ d ∈ diagnostics, m ≠ fieldName source i.observable d) :
    getField (initialValues.foldl (createField source i) fields) m = getField fields m := by
  rw [getField_fold source i initialValues diagnostics_nodup]
  have : (initialValues.find? fun e => m == fieldName source i.observable e.1) = none := by
    rw [List.find?_eq_none]
    intro e he hm
    exact h e.1 (by rw [← initialValues_names]; exact List.mem_map.2 ⟨e, he, rfl⟩) (by simpa using hm)
  rw [this]

end Verif.Eustace.Diagnostic
