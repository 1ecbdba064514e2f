import Verif.Eumopps.Placeholder.Lemmas

/-! Properties C05-C08: how file placeholders become references. -/
namespace Verif.Eumopps.Placeholder
open Verif Verif.Py Verif.Eumopps.Catalogue Spec

/-- **C05, C07.** Whenever resolving an input succeeds there is one reference list per step, and the list of step `i` holds
exactly the entries that belong to step `i` (see `Spec.Selected`: all files in the step in catalogue order, or the file with
the generated name), or the single marker -1 if there is none and missing data is allowed. -/
theorem c05_references {inp : InputFileList} {skip skip' : List Bool} {cat : Catalogue} {step : Step}
    {refs : List (List Int)} (h : findReferences inp skip cat step = .ok (refs, skip')) :
    ∃ s p d, cat.datasubset inp.datasetname inp.subsetindex = some s ∧ s.patterns = some p ∧
      cat.datasetindex inp.datasetname = some d ∧ refs.length = step.count ∧
      ∀ i < step.count, ∃ js, Selected step p s.entries i js ∧
        refs[i]? = some (triples d inp.subsetindex
          (if js = [] ∧ inp.missingData = .allowed then [-1] else js.map (fun (j : Nat) => (j : Int)))) := by
  obtain ⟨s, p, d, g, h1, h2, h3, h4, h5⟩ := findReferences_ok h
  have hr : refs = (List.range step.count).map (stepRefs inp (d : Int) g) := finish_refs h5
  refine ⟨s, p, d, h1, h3, h2, by simp [hr], ?_⟩
  intro i hi
  obtain ⟨js, hs, hd⟩ := groups_lookup h4 i hi
  refine ⟨js, hs, ?_⟩
  rw [hr, List.getElem?_map, List.getElem?_range hi, Option.map_some, stepRefs, hd]
  by_cases hj : js = []
  · simp [hj, triples]
  · simp [hj, triples]

/-- **C06.** Outcome under each policy, for every catalogue in which the subset exists and has patterns (and, if
names determine the step, file times can be converted to a step): not-allowed fails exactly if some step has no file; skip marks exactly the steps with no file;
allowed never fails and marks nothing. -/
theorem c06_policy {inp : InputFileList} {skip : List Bool} {cat : Catalogue} {step : Step} {s : Subset} {p : List String}
    (hs : cat.datasubset inp.datasetname inp.subsetindex = some s) (hp : s.patterns = some p)
    (ht : step.isUniquelyDefinedBy p = true → ∀ e ∈ s.entries, ∃ n, step.indexAtTime e.time = .ok n) (hl : skip.length = step.count) :
    match inp.missingData with
    | .notAllowed =>
      ((∀ i < step.count, HasFile step p s.entries i) → ∃ refs, findReferences inp skip cat step = .ok (refs, skip)) ∧
      ((∃ i < step.count, ¬ HasFile step p s.entries i) → findReferences inp skip cat step = .error .operationError)
    | .skip => ∃ refs skip', findReferences inp skip cat step = .ok (refs, skip') ∧ skip'.length = step.count ∧
        ∀ i < step.count, (skip'[i]? = some true ↔ (skip[i]? = some true ∨ ¬ HasFile step p s.entries i))
    | _ => ∃ refs, findReferences inp skip cat step = .ok (refs, skip) := by
  obtain ⟨g, hg⟩ := groupsOf_total (p := p) ht
  obtain ⟨d, hd, _⟩ := datasetindex_of_subset hs
  have he : findReferences inp skip cat step =
      finish inp skip ((List.range step.count).map (stepRefs inp (d : Int) g)) := by
    simp only [findReferences, hs, hd, hp, hg]
  rw [he]
  have hmiss := fun hna => missing_iff (inp := inp) hg (d : Int) hna
  cases hm : inp.missingData with
  | notAllowed =>
    have hmiss' := hmiss (by simp [hm])
    simp only [finish, hm]
    constructor
    · intro hall
      have : missingOf ((List.range step.count).map (stepRefs inp (d : Int) g)) = [] := by
        rw [List.eq_nil_iff_forall_not_mem]
        intro i hi
        have := (hmiss' i).1 hi
        exact this.2 (hall i this.1)
      rw [this]
      exact ⟨_, rfl⟩
    · rintro ⟨i, hi, hn⟩
      have := List.length_pos_of_mem ((hmiss' i).2 ⟨hi, hn⟩)
      rw [if_pos this]
  | skip =>
    have hmiss' := hmiss (by simp [hm])
    obtain ⟨sk', h1, h2, h3⟩ := foldlM_skip (missingOf ((List.range step.count).map (stepRefs inp (d : Int) g))) skip
      (by intro i hi; rw [hl]; exact ((hmiss' i).1 hi).1)
    simp only [finish, hm, h1]
    refine ⟨_, sk', rfl, by omega, ?_⟩
    intro i hi
    have hb : skip[i]? = some skip[i] := by simp
    rw [h3 i _ hb, hb]
    simp only [Option.some.injEq, Bool.or_eq_true, decide_eq_true_eq, hmiss', hi, true_and]
  | allowed => simp only [finish, hm]; exact ⟨_, rfl⟩
  | other => simp only [finish, hm]; exact ⟨_, rfl⟩

/-- **C06.** A single-file input is accepted only when there is at least one step and no step has two or more files. -/
theorem c06_single_file {inp : InputFileList} {skip skip' : List Bool} {cat : Catalogue} {step : Step}
    {refs : List (List Int)} (h : resolveInputFile inp skip cat step = .ok (refs, skip')) :
    findReferences inp skip cat step = .ok (refs, skip') ∧ 0 < step.count ∧
    ∃ s p, cat.datasubset inp.datasetname inp.subsetindex = some s ∧ s.patterns = some p ∧
      ∀ i < step.count, ∀ js, Selected step p s.entries i js → js.length ≤ 1 := by
  unfold resolveInputFile at h
  cases hf : findReferences inp skip cat step with
  | error e => rw [hf] at h; cases h
  | ok rs =>
    obtain ⟨refs0, sk0⟩ := rs
    rw [hf] at h
    simp only at h
    cases hmax : (refs0.map List.length).max? with
    | none => rw [hmax] at h; cases h
    | some m =>
      rw [hmax] at h
      simp only at h
      split at h
      · cases h
      · rename_i hm
        cases h
        obtain ⟨s, p, d, h1, h2, h3, h4, h5⟩ := c05_references hf
        refine ⟨rfl, ?_, s, p, h1, h2, ?_⟩
        · rcases Nat.eq_zero_or_pos step.count with h0 | h0
          · rw [h0] at h4
            have : refs = [] := List.eq_nil_of_length_eq_zero h4
            rw [this] at hmax; cases hmax
          · exact h0
        · intro i hi js hsel
          obtain ⟨js', hsel', hr⟩ := h5 i hi
          have hjj : js = js' := selected_unique hsel hsel'
          subst hjj
          have hmem := List.mem_of_getElem? hr
          have hle := (List.max?_eq_some_iff.1 hmax).2 _ (List.mem_map.2 ⟨_, hmem, rfl⟩)
          have h3' : ∀ es : List Int, (triples d inp.subsetindex es).length = 3 * es.length := by
            intro es
            induction es with
            | nil => rfl
            | cons e es ih => simp only [triples, List.flatMap_cons, List.length_append] at ih ⊢
                              rw [ih]; simp; omega
          rw [h3'] at hle
          by_cases hj : js = []
          · simp [hj]
          · simp only [hj, false_and, if_false, List.length_map] at hle
            omega

/-- **C08.** A successful output resolution found the subset empty; it returns one reference per operation, to an entry
carrying the name generated for that operation; operations share an entry exactly if their names are equal; each new entry
is generated by some operation; and nothing else in the catalogue changes. -/
theorem c08_outputs {name : String} {si : Int} {cat cat' : Catalogue} {step : Step} {ops : List Nat}
    {refs : List (List Int)} (h : resolveOutputFile name si cat step ops = .ok (refs, cat')) :
    ∃ (d : Nat) (s : Subset) (p : List String) (es : List FileEntry) (js : List Nat),
      cat.datasubset name si = some s ∧ s.entries = [] ∧ s.patterns = some p ∧
      cat.datasetindex name = some d ∧ 0 ≤ si ∧
      -- the references
      refs = js.map (fun (j : Nat) => [(d : Int), si, (j : Int)]) ∧ js.length = ops.length ∧
      (∀ (k i : Nat), ops[k]? = some i →
        ∃ j e, js[k]? = some j ∧ es[j]? = some e ∧ e.name = (step.createOutputEntry p i).name) ∧
      (∀ (k k' i i' : Nat), ops[k]? = some i → ops[k']? = some i' →
        (js[k]? = js[k']? ↔ (step.createOutputEntry p i).name = (step.createOutputEntry p i').name)) ∧
      -- the new entries: distinct names, each generated by its first user, numbered in order of first use
      (∀ e ∈ es, ∃ i ∈ ops, e = step.createOutputEntry p i) ∧ (es.map (·.name)).Nodup ∧
      (∀ (k i j : Nat), ops[k]? = some i → js[k]? = some j → (∀ k0 < k, js[k0]? ≠ some j) →
        es[j]? = some (step.createOutputEntry p i)) ∧
      (∀ (k j : Nat), js[k]? = some j → ∀ j0 < j, ∃ k0 < k, js[k0]? = some j0) ∧
      -- the catalogue
      cat'.datasubset name si = some { s with entries := es } ∧
      subsetAt cat' d si.toNat = some { s with entries := es } ∧
      (∀ d' s', (d', s') ≠ (d, si.toNat) → subsetAt cat' d' s' = subsetAt cat d' s') ∧
      cat'.datasets.map (fun ds => (ds.name, ds.path, ds.subsets.length)) =
        cat.datasets.map (fun ds => (ds.name, ds.path, ds.subsets.length)) := by
  unfold resolveOutputFile at h
  cases hs : cat.datasubset name si with
  | none => rw [hs] at h; simp at h
  | some s =>
    obtain ⟨d, hd, hsi, hat, ds, hds, hdn⟩ := datasetindex_of_subset hs
    rw [hs, hd] at h
    simp only at h
    split at h
    · cases h
    · rename_i hempty
      cases hp : s.patterns with
      | none => rw [hp] at h; cases h
      | some p =>
        rw [hp] at h
        simp only [Except.ok.injEq, Prod.mk.injEq] at h
        obtain ⟨h1, h2⟩ := h
        obtain ⟨js, i1, i2, i3, i4, i5, i6, i7, _⟩ := output_loop step p (d : Int) si ops
        obtain ⟨f1, f2, f3, f4⟩ := setEntries_frame (es := (ops.foldl (outputStep step p (d : Int) si) ⟨[], [], []⟩).entries) hs hd
        rw [h2] at f1 f2 f3 f4
        refine ⟨d, s, p, (ops.foldl (outputStep step p (d : Int) si) ⟨[], [], []⟩).entries, js, rfl, ?_, hp, hd, hsi,
          h1.symm.trans i1, i2, i3, ?_, i4, i5, i6, i7, f1, f2, f3, f4⟩
        · cases he : s.entries with
          | nil => rfl
          | cons a l => rw [he] at hempty; simp at hempty
        · intro k k' i i' hk hk'
          obtain ⟨j, e, hj, he, hn⟩ := i3 k i hk
          obtain ⟨j', e', hj', he', hn'⟩ := i3 k' i' hk'
          rw [hj, hj', ← hn, ← hn', Option.some.injEq]
          constructor
          · rintro rfl
            rw [he] at he'; cases he'; rfl
          · intro heq
            have hlt := (List.getElem?_eq_some_iff.1 he).1
            exact (List.getElem?_inj (by simpa using hlt) i5).1 (by simp [he, he', heq])

/-- **C08.** An output whose subset is missing or already has entries is refused. -/
theorem c08_refused {name : String} {si : Int} {cat : Catalogue} {step : Step} {ops : List Nat}
    (h : cat.datasubset name si = none ∨ ∃ s, cat.datasubset name si = some s ∧ s.entries ≠ []) :
    resolveOutputFile name si cat step ops = .error .operationError := by
  unfold resolveOutputFile
  rcases h with h | ⟨s, h, hne⟩
  · rw [h]
  · obtain ⟨d, hd, _⟩ := datasetindex_of_subset h
    rw [h, hd]
    simp only
    rw [if_pos (List.length_pos_iff.2 hne)]

/-! Non-vacuity: a daily-like step over hours, three files (out of order, two in one step), one step without file. -/

/-- A step of 24 time units; names are "f" ++ index. -/
def demoStep : Step where
  count := 3
  indexAtTime := fun t => match t with
    | some t => .ok (t / 24)
    | none => .error .typeError
  timeAtIndex := fun i => .ok (24 * i)
  createOutputEntry := fun ps i => ⟨String.join ps ++ toString (i / 2), none⟩
  isUniquelyDefinedBy := fun ps => ps.contains "%d"

def demoCat : Catalogue :=
  ⟨[⟨"in", "/in", [⟨some ["%d"], [⟨"a", some 50⟩, ⟨"b", some 3⟩, ⟨"c", some 49⟩, ⟨"d", some 1000⟩]⟩]⟩,
    ⟨"out", "/out", [⟨some ["o"], []⟩]⟩, ⟨"fix", "/fix", [⟨some ["o"], [⟨"o1", none⟩, ⟨"o0", none⟩]⟩]⟩]⟩

example : findReferences ⟨"in", 0, .skip⟩ [false, false, false] demoCat demoStep
    = .ok ([[0, 0, 1], [], [0, 0, 0, 0, 0, 2]], [false, true, false]) := by
  decide +kernel
example : findReferences ⟨"in", 0, .notAllowed⟩ [false, false, false] demoCat demoStep = .error .operationError := by
  decide +kernel
example : findReferences ⟨"fix", 0, .notAllowed⟩ [false, false, false] demoCat demoStep
    = .ok ([[2, 0, 1], [2, 0, 1], [2, 0, 0]], [false, false, false]) := by decide
example : (resolveOutputFile "out" 0 demoCat demoStep [0, 1, 2]).map (·.1)
    = .ok [[1, 0, 0], [1, 0, 0], [1, 0, 1]] := by decide
example : resolveOutputFile "fix" 0 demoCat demoStep [0] = .error .operationError := by decide

end Verif.Eumopps.Placeholder
