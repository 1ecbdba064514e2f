import Mathlib.Data.List.Induction
import Verif.PyLemmas
import Verif.Eumopps.Placeholder.Model
import Verif.Eumopps.Placeholder.Spec

namespace Verif.Eumopps.Placeholder
open Verif Verif.Py Verif.Eumopps.Catalogue Spec

theorem zipIdx_getElem? (l : List α) (k : Nat) (p : α × Nat) :
    l.zipIdx[k]? = some p ↔ l[k]? = some p.1 ∧ p.2 = k := by
  rw [List.getElem?_zipIdx]
  cases l[k]? <;> simp [Prod.ext_iff, eq_comm]

theorem map_fst_range {l : List (Nat × β)} (h : ∀ (k : Nat) (p : Nat × β), l[k]? = some p → p.1 = k) :
    l.map (·.1) = List.range l.length := by
  apply List.ext_getElem? 
  intro k
  by_cases hk : k < l.length
  · have := h k l[k] (by simp [hk])
    simp [hk, this]
  · simp [hk]

/-- The time branch of the lookup. -/
theorem byTime_lookup {step : Step} {entries : List FileEntry} {g : List (Int × List Nat)}
    (h : matchgroupsByTime step entries = .ok g) (i : Nat) :
    ∃ js : List Nat, js.Pairwise (· < ·) ∧ (∀ j, j ∈ js ↔ FileInStep step entries i j) ∧
      dictGet g (i : Int) = if js = [] then none else some js := by
  unfold matchgroupsByTime at h
  cases hm : entries.zipIdx.mapM (fun (x : FileEntry × Nat) => do
      let s ← step.indexAtTime x.1.time
      pure (x.2, s) : FileEntry × Nat → Except PyErr (Nat × Int)) with
  | error e => simp only [hm] at h; cases h
  | ok r =>
    simp only [hm] at h
    have hg : g = (groupby (fun ms : Nat × Int => ms.2) (sortedBy (fun ms => ms.2) r)).map
        (fun e => (e.1, e.2.map (·.1))) := by cases h; rfl
    obtain ⟨hlen, hpt⟩ := mapM_ok hm
    have hpt' : ∀ (k : Nat) (p : Nat × Int), r[k]? = some p →
        p.1 = k ∧ ∃ e, entries[k]? = some e ∧ step.indexAtTime e.time = .ok p.2 := by
      intro k p hp
      have hk : k < entries.length := by
        have := (List.getElem?_eq_some_iff.1 hp).1
        simpa [hlen] using this
      obtain ⟨b, hb, hf⟩ := hpt k (entries[k], k) (by simp [zipIdx_getElem?, hk])
      rw [hb] at hp; cases hp
      cases hi : step.indexAtTime entries[k].time with
      | error e => simp only [hi] at hf; cases hf
      | ok s =>
        simp only [hi] at hf
        cases hf
        exact ⟨rfl, entries[k], by simp [hk], hi⟩
    refine ⟨(r.filter (fun a => decide (a.2 = (i : Int)))).map (·.1), ?_, ?_, ?_⟩
    · have hs : ((r.filter (fun a => decide (a.2 = (i : Int)))).map (·.1)).Sublist (r.map (·.1)) :=
        List.filter_sublist.map _
      rw [map_fst_range (fun k p hp => (hpt' k p hp).1)] at hs
      exact List.pairwise_lt_range.sublist hs
    · intro j
      simp only [List.mem_map, List.mem_filter, decide_eq_true_eq]
      constructor
      · rintro ⟨p, ⟨hp, hi⟩, rfl⟩
        obtain ⟨k, hk⟩ := List.mem_iff_getElem?.1 hp
        obtain ⟨h1, e, h2, h3⟩ := hpt' k p hk
        exact ⟨e, by rw [h1]; exact h2, by rw [h3, hi]⟩
      · rintro ⟨e, he, hi⟩
        have hj : j < r.length := by
          have := (List.getElem?_eq_some_iff.1 he).1
          simpa [hlen] using this
        obtain ⟨h1, e', h2, h3⟩ := hpt' j r[j] (by simp [hj])
        refine ⟨r[j], ⟨List.getElem_mem hj, ?_⟩, h1⟩
        rw [he] at h2; cases h2
        rw [hi] at h3; simp only [Except.ok.injEq] at h3; exact h3.symm
    · rw [hg, dictGet_map, dictGet_groupby]
      simp only [List.map_eq_nil_iff]
      split <;> rfl

theorem byTime_total {step : Step} {entries : List FileEntry}
    (h : ∀ e ∈ entries, ∃ s, step.indexAtTime e.time = .ok s) :
    ∃ g, matchgroupsByTime step entries = .ok g := by
  unfold matchgroupsByTime
  have : ∀ x ∈ entries.zipIdx, ∃ b : Nat × Int, (do
      let s ← step.indexAtTime x.1.time
      pure (x.2, s) : Except PyErr (Nat × Int)) = .ok b := by
    intro x hx
    obtain ⟨s, hs⟩ := h x.1 (List.fst_mem_of_mem_zipIdx hx)
    exact ⟨(x.2, s), by rw [hs]; rfl⟩
  obtain ⟨r, hr⟩ := mapM_total this
  simp only [hr]
  exact ⟨_, rfl⟩

theorem nameDict (entries : List FileEntry) (n : String) :
    match dictGet (entries.zipIdx.map (fun (x : FileEntry × Nat) => (x.1.name, x.2))) n with
    | none => ∀ j, ¬ Named entries n j
    | some j => Named entries n j ∧ ∀ j', j < j' → ¬ Named entries n j' := by
  have key : ∀ (m : List FileEntry), 
      match dictGet (m.zipIdx.map (fun (x : FileEntry × Nat) => (x.1.name, x.2))) n with
      | none => ∀ j, ¬ Named m n j
      | some j => Named m n j ∧ ∀ j', j < j' → ¬ Named m n j' := by
    intro m
    induction m using List.reverseRecOn with
    | nil => simp [dictGet, Named]
    | append_singleton l a ih =>
      rw [List.zipIdx_append, List.map_append]
      simp only [List.zipIdx_cons, List.zipIdx_nil, List.map_cons, List.map_nil, Nat.zero_add]
      rw [dictGet_append_single]
      have hN : ∀ j, Named (l ++ [a]) n j ↔ Named l n j ∨ (j = l.length ∧ a.name = n) := by
        intro j
        unfold Named
        rw [List.getElem?_append]
        split
        · rename_i hj
          have : j ≠ l.length := by omega
          simp [this]
        · rename_i hj
          have h0 : l[j]? = none := by simp; omega
          rw [h0]
          by_cases hj2 : j = l.length
          · subst hj2; simp
          · have : [a][j - l.length]? = none := by simp; omega
            rw [this]; simp [hj2]
      have hlt : ∀ j, Named l n j → j < l.length := by
        rintro j ⟨e, he, _⟩
        exact (List.getElem?_eq_some_iff.1 he).1
      by_cases ha : a.name = n
      · rw [if_pos ha]
        simp only [hN]
        refine ⟨Or.inr ⟨by trivial, by simpa using ha⟩, ?_⟩
        rintro j' hj' (h | ⟨h, _⟩)
        · have := hlt j' h; omega
        · omega
      · rw [if_neg ha]
        revert ih
        cases dictGet (l.zipIdx.map (fun (x : FileEntry × Nat) => (x.1.name, x.2))) n with
        | none => simp only [hN, ha, and_false, or_false]; exact id
        | some j => simp only [hN, ha, and_false, or_false]; exact id
  exact key entries

theorem byName_mem {step : Step} {patterns : List String} {entries : List FileEntry} (i : Nat) (js : List Nat) :
    ((i : Int), js) ∈ matchgroupsByName step patterns entries ↔ i < step.count ∧ ∃ j, js = [j] ∧
      dictGet (entries.zipIdx.map (fun (x : FileEntry × Nat) => (x.1.name, x.2)))
        (step.createOutputEntry patterns i).name = some j := by
  unfold matchgroupsByName
  simp only [List.mem_filterMap, Option.map_eq_some_iff, Prod.exists]
  constructor
  · rintro ⟨mi, k, hmem, j, hj, heq⟩
    simp only [Prod.mk.injEq] at heq
    obtain ⟨hk, rfl⟩ := heq
    have hki : k = i := by omega
    subst hki
    rw [List.mem_zipIdx_iff_getElem?] at hmem
    simp only [List.getElem?_map, Option.map_eq_some_iff] at hmem
    obtain ⟨x, hx, hx2⟩ := hmem
    have hlt : k < step.count := by
      have := (List.getElem?_eq_some_iff.1 hx).1
      simpa using this
    rw [List.getElem?_range hlt] at hx
    simp only [Option.some.injEq] at hx
    subst hx
    exact ⟨hlt, j, rfl, hx2.trans hj⟩
  · rintro ⟨hlt, j, rfl, hj⟩
    refine ⟨some j, i, ?_, j, rfl, rfl⟩
    rw [List.mem_zipIdx_iff_getElem?]
    simp [List.getElem?_range hlt, hj]

theorem byName_lookup (step : Step) (patterns : List String) (entries : List FileEntry) (i : Nat) (hi : i < step.count) :
    dictGet (matchgroupsByName step patterns entries) (i : Int) =
      (dictGet (entries.zipIdx.map (fun (x : FileEntry × Nat) => (x.1.name, x.2)))
        (step.createOutputEntry patterns i).name).map (fun j => [j]) := by
  cases hd : dictGet (matchgroupsByName step patterns entries) (i : Int) with
  | some js =>
    obtain ⟨_, j, rfl, hj⟩ := (byName_mem i js).1 (mem_of_dictGet hd)
    rw [hj]; rfl
  | none =>
    rw [dictGet_none_iff] at hd
    cases hj : dictGet (entries.zipIdx.map (fun (x : FileEntry × Nat) => (x.1.name, x.2)))
        (step.createOutputEntry patterns i).name with
    | none => rfl
    | some j =>
      exact absurd rfl (hd _ ((byName_mem i [j]).2 ⟨hi, j, rfl, hj⟩))

theorem groups_lookup {step : Step} {patterns : List String} {entries : List FileEntry} {g : List (Int × List Nat)}
    (h : groupsOf step patterns entries = .ok g) (i : Nat) (hi : i < step.count) :
    ∃ js, Selected step patterns entries i js ∧ dictGet g (i : Int) = if js = [] then none else some js := by
  unfold groupsOf at h
  unfold Selected
  split at h
  · rename_i hu
    obtain ⟨js, h1, h2, h3⟩ := byTime_lookup h i
    exact ⟨js, by rw [if_pos hu]; exact ⟨h1, h2⟩, h3⟩
  · rename_i hu
    cases h
    have hn := nameDict entries (step.createOutputEntry patterns i).name
    rw [byName_lookup _ _ _ _ hi]
    revert hn
    cases dictGet (entries.zipIdx.map (fun (x : FileEntry × Nat) => (x.1.name, x.2)))
        (step.createOutputEntry patterns i).name with
    | none => intro hn; exact ⟨[], by rw [if_neg hu]; exact Or.inl ⟨rfl, hn⟩, rfl⟩
    | some j => intro hn; exact ⟨[j], by rw [if_neg hu]; exact Or.inr ⟨j, rfl, hn⟩, rfl⟩

theorem selected_hasFile {step : Step} {patterns : List String} {entries : List FileEntry} {i : Nat} {js : List Nat}
    (h : Selected step patterns entries i js) : js = [] ↔ ¬ HasFile step patterns entries i := by
  unfold Selected at h
  unfold HasFile
  split at h
  · rename_i hu
    rw [if_pos hu]
    rw [List.eq_nil_iff_forall_not_mem]
    simp [h.2]
  · rename_i hu
    rw [if_neg hu]
    rcases h with ⟨rfl, hn⟩ | ⟨j, rfl, hj, _⟩
    · simpa using hn
    · simp only [reduceCtorEq, not_exists, false_iff, not_forall, not_not]
      exact ⟨j, hj⟩

theorem foldlM_skip : ∀ (missing : List Nat) (sk : List Bool), (∀ i ∈ missing, i < sk.length) →
    ∃ sk', missing.foldlM (fun sk i => if i < sk.length then (.ok (sk.set i true) : Except PyErr (List Bool)) else .error .indexError) sk
        = .ok sk' ∧ sk'.length = sk.length ∧
      ∀ i b, sk[i]? = some b → sk'[i]? = some (b || decide (i ∈ missing))
  | [], sk, _ => ⟨sk, rfl, rfl, by simp⟩
  | m :: ms, sk, h => by
    have hm := h m (by simp)
    obtain ⟨sk', h1, h2, h3⟩ := foldlM_skip ms (sk.set m true) (by
      intro i hi; simpa using h i (by simp [hi]))
    refine ⟨sk', ?_, by simpa using h2, ?_⟩
    · rw [List.foldlM_cons, if_pos hm]; exact h1
    · intro i b hb
      by_cases him : m = i
      · subst him
        rw [h3 m true (by simp [hm])]
        simp
      · rw [h3 i b (by rw [List.getElem?_set_ne him]; exact hb)]
        have : i ≠ m := fun h => him h.symm
        simp [this]

theorem mem_missingOf (refs : List (List Int)) (i : Nat) : i ∈ missingOf refs ↔ refs[i]? = some [] := by
  unfold missingOf
  simp only [List.mem_map, List.mem_filter, Prod.exists, exists_eq_right, List.mem_zipIdx_iff_getElem?]
  constructor
  · rintro ⟨a, h, h0⟩
    have : a = [] := by simpa using h0
    rw [this] at h; simpa using h
  · intro h
    exact ⟨[], h, rfl⟩

theorem datasetindex_of_subset {cat : Catalogue} {n : String} {i : Int} {s : Subset}
    (h : cat.datasubset n i = some s) : ∃ d, cat.datasetindex n = some d ∧ 0 ≤ i ∧
      subsetAt cat d i.toNat = some s ∧ ∃ ds, cat.datasets[d]? = some ds ∧ ds.name = n := by
  unfold Catalogue.datasubset Catalogue.dataset at h
  unfold Catalogue.datasetindex subsetAt
  cases hf : cat.datasets.find? (fun d => d.name == n) with
  | none => rw [hf] at h; cases h
  | some ds =>
    rw [hf] at h
    simp only at h
    rw [List.find?_eq_some_iff_getElem] at hf
    obtain ⟨hn, k, hk, hks, hlt⟩ := hf
    refine ⟨k, ?_, ?_, ?_, ds, by simp [hk, hks], by simpa using hn⟩
    · rw [List.findIdx?_eq_some_iff_getElem]
      exact ⟨hk, by rw [hks]; exact hn, fun j hj => by simpa using hlt j hj⟩
    · unfold DataSet.subset at h
      split at h
      · rename_i h'; exact h'.1
      · cases h
    · unfold DataSet.subset at h
      split at h
      · simp [hk, hks, h]
      · cases h

theorem groupsOf_total {step : Step} {p : List String} {entries : List FileEntry}
    (h : step.isUniquelyDefinedBy p = true → ∀ e ∈ entries, ∃ s, step.indexAtTime e.time = .ok s) : ∃ g, groupsOf step p entries = .ok g := by
  unfold groupsOf
  split
  · rename_i hu; exact byTime_total (h hu)
  · exact ⟨_, rfl⟩

theorem findReferences_ok {inp : InputFileList} {skip : List Bool} {cat : Catalogue} {step : Step}
    {r : List (List Int) × List Bool} (h : findReferences inp skip cat step = .ok r) :
    ∃ s p d g, cat.datasubset inp.datasetname inp.subsetindex = some s ∧
      cat.datasetindex inp.datasetname = some d ∧ s.patterns = some p ∧
      groupsOf step p s.entries = .ok g ∧
      finish inp skip ((List.range step.count).map (stepRefs inp (d : Int) g)) = .ok r := by
  unfold findReferences at h
  cases hs : cat.datasubset inp.datasetname inp.subsetindex with
  | none => rw [hs] at h; simp at h
  | some s =>
    cases hd : cat.datasetindex inp.datasetname with
    | none => rw [hs, hd] at h; simp at h
    | some d =>
      rw [hs, hd] at h
      simp only at h
      cases hp : s.patterns with
      | none => rw [hp] at h; simp at h
      | some p =>
        rw [hp] at h
        simp only at h
        cases hg : groupsOf step p s.entries with
        | error e => rw [hg] at h; simp at h
        | ok g =>
          rw [hg] at h
          exact ⟨s, p, d, g, rfl, rfl, hp, hg, h⟩

theorem finish_refs {inp : InputFileList} {skip : List Bool} {refs0 refs : List (List Int)} {sk : List Bool}
    (h : finish inp skip refs0 = .ok (refs, sk)) : refs = refs0 := by
  unfold finish at h
  split at h
  · split at h
    · cases h
    · cases h; rfl
  · split at h
    · cases h; rfl
    · cases h
  · cases h; rfl

theorem selected_unique {step : Step} {p : List String} {es : List FileEntry} {i : Nat} {js js' : List Nat}
    (h : Selected step p es i js) (h' : Selected step p es i js') : js = js' := by
  unfold Selected at h h'
  split at h
  · rename_i hu
    rw [if_pos hu] at h'
    refine List.Perm.eq_of_pairwise (le := (· < ·)) ?_ h.1 h'.1 ?_
    · intro a b _ _ h1 h2; omega
    · rw [List.perm_ext_iff_of_nodup (h.1.imp (by intro a b; omega)) (h'.1.imp (by intro a b; omega))]
      intro a; rw [h.2, h'.2]
  · rename_i hu
    rw [if_neg hu] at h'
    rcases h with ⟨rfl, hn⟩ | ⟨j, rfl, hj, hl⟩ <;> rcases h' with ⟨rfl, hn'⟩ | ⟨j', rfl, hj', hl'⟩
    · rfl
    · exact absurd hj' (hn j')
    · exact absurd hj (hn' j)
    · have : j = j' := by
        rcases Nat.lt_trichotomy j j' with h1 | h1 | h1
        · exact absurd hj' (hl _ h1)
        · exact h1
        · exact absurd hj (hl' _ h1)
      rw [this]

/-- Invariant of the loop of placeholder.py 253-271. -/
theorem output_loop (step : Step) (p : List String) (d si : Int) (ops : List Nat) :
    ∃ js : List Nat,
      let st := ops.foldl (outputStep step p d si) ⟨[], [], []⟩
      st.refs = js.map (fun (j : Nat) => [d, si, (j : Int)]) ∧ js.length = ops.length ∧
      (∀ (k i : Nat), ops[k]? = some i →
        ∃ j e, js[k]? = some j ∧ st.entries[j]? = some e ∧ e.name = (step.createOutputEntry p i).name) ∧
      (∀ e ∈ st.entries, ∃ i ∈ ops, e = step.createOutputEntry p i) ∧ (st.entries.map (·.name)).Nodup ∧
      (∀ (k i j : Nat), ops[k]? = some i → js[k]? = some j → (∀ k0 < k, js[k0]? ≠ some j) →
        st.entries[j]? = some (step.createOutputEntry p i)) ∧
      (∀ (k j : Nat), js[k]? = some j → ∀ j0 < j, ∃ k0 < k, js[k0]? = some j0) ∧
      st.names = st.entries.zipIdx.map (fun (x : FileEntry × Nat) => (x.1.name, x.2)) ∧
      (∀ j < st.entries.length, ∃ k : Nat, js[k]? = some j) := by
  induction ops using List.reverseRecOn with
  | nil => exact ⟨[], by simp⟩
  | append_singleton ops i ih =>
    obtain ⟨js, h1, h2, h3, h4, h5, h6, h7, h8, h9⟩ := ih
    rw [List.foldl_append]
    simp only [List.foldl_cons, List.foldl_nil]
    generalize ops.foldl (outputStep step p d si) ⟨[], [], []⟩ = st at h1 h2 h3 h4 h5 h6 h7 h8 h9 ⊢
    have hnd := nameDict st.entries (step.createOutputEntry p i).name
    rw [← h8] at hnd
    unfold outputStep
    have hjlt : ∀ (k j : Nat), js[k]? = some j → k < ops.length := by
      intro k j hk
      have := (List.getElem?_eq_some_iff.1 hk).1
      omega
    have hsplit : ∀ (k x : Nat), (ops ++ [i])[k]? = some x → ops[k]? = some x ∨ (k = ops.length ∧ x = i) := by
      intro k x hk
      rw [List.getElem?_append] at hk
      split at hk
      · exact Or.inl hk
      · have := (List.getElem?_eq_some_iff.1 hk).1
        simp only [List.length_cons, List.length_nil] at this
        have h0 : k - ops.length = 0 := by omega
        rw [h0] at hk
        simp only [List.getElem?_cons_zero, Option.some.injEq] at hk
        exact Or.inr ⟨by omega, hk.symm⟩
    have hjs : ∀ (y k x : Nat), (js ++ [y])[k]? = some x ↔ js[k]? = some x ∨ (k = ops.length ∧ x = y) := by
      intro y k x
      rw [List.getElem?_append]
      split
      · constructor
        · exact Or.inl
        · rintro (h | ⟨h, _⟩)
          · exact h
          · omega
      · rename_i hk
        have hn : js[k]? = none := by simp; omega
        rw [hn]
        by_cases hk2 : k = ops.length
        · have h0 : k - js.length = 0 := by omega
          rw [h0]; simp [hk2, eq_comm]
        · have h0 : [y][k - js.length]? = none := by simp; omega
          rw [h0]; simp [hk2]
    cases hdict : dictGet st.names (step.createOutputEntry p i).name with
    | some e =>
      rw [hdict] at hnd
      obtain ⟨⟨fe, hfe, hfn⟩, _⟩ := hnd
      have helt := (List.getElem?_eq_some_iff.1 hfe).1
      obtain ⟨k1, hk1⟩ := h9 e helt
      refine ⟨js ++ [e], ?_⟩
      simp only [hdict]
      refine ⟨by simp [h1], by simp [h2], ?_, ?_, h5, ?_, ?_, h8, ?_⟩
      · intro k x hk
        rcases hsplit k x hk with hk | ⟨rfl, rfl⟩
        · obtain ⟨j, e', a, b, c⟩ := h3 k x hk
          exact ⟨j, e', (hjs _ _ _).2 (Or.inl a), b, c⟩
        · exact ⟨e, fe, (hjs _ _ _).2 (Or.inr ⟨rfl, rfl⟩), hfe, hfn⟩
      · intro e' he'
        obtain ⟨x, hx, hx2⟩ := h4 e' he'
        exact ⟨x, by simp [hx], hx2⟩
      · intro k x j hk hj hfirst
        rcases hsplit k x hk with hk | ⟨rfl, rfl⟩
        · have hklt := (List.getElem?_eq_some_iff.1 hk).1
          rcases (hjs _ _ _).1 hj with hj | ⟨h, _⟩
          · exact h6 k x j hk hj (fun k0 hk0 hc => hfirst k0 hk0 ((hjs _ _ _).2 (Or.inl hc)))
          · omega
        · rcases (hjs _ _ _).1 hj with hj | ⟨_, rfl⟩
          · have := hjlt _ _ hj; omega
          · exact absurd ((hjs _ _ _).2 (Or.inl hk1)) (hfirst k1 (hjlt _ _ hk1))
      · intro k j hj j0 hj0
        rcases (hjs _ _ _).1 hj with hj | ⟨rfl, rfl⟩
        · obtain ⟨k0, a, b⟩ := h7 k j hj j0 hj0
          exact ⟨k0, a, (hjs _ _ _).2 (Or.inl b)⟩
        · obtain ⟨k0, a, b⟩ := h7 k1 j hk1 j0 hj0
          have := hjlt _ _ hk1
          exact ⟨k0, by omega, (hjs _ _ _).2 (Or.inl b)⟩
      · intro j hj
        obtain ⟨k, hk⟩ := h9 j hj
        exact ⟨k, (hjs _ _ _).2 (Or.inl hk)⟩
    | none =>
      rw [hdict] at hnd
      have hnd' : ∀ j, ¬ Named st.entries (step.createOutputEntry p i).name j := hnd
      refine ⟨js ++ [st.entries.length], ?_⟩
      simp only [hdict]
      have hent : ∀ (j : Nat) (e : FileEntry), (st.entries ++ [step.createOutputEntry p i])[j]? = some e ↔
          st.entries[j]? = some e ∨ (j = st.entries.length ∧ e = step.createOutputEntry p i) := by
        intro j e
        rw [List.getElem?_append]
        split
        · rename_i hlt
          constructor
          · exact Or.inl
          · rintro (h | ⟨h, _⟩)
            · exact h
            · omega
        · rename_i hlt
          have hn : st.entries[j]? = none := by simp; omega
          rw [hn]
          by_cases hk2 : j = st.entries.length
          · subst hk2; simp [eq_comm]
          · have h0 : [step.createOutputEntry p i][j - st.entries.length]? = none := by simp; omega
            rw [h0]; simp [hk2]
      refine ⟨by simp [h1], by simp [h2], ?_, ?_, ?_, ?_, ?_, ?_, ?_⟩
      · intro k x hk
        rcases hsplit k x hk with hk | ⟨rfl, rfl⟩
        · obtain ⟨j, e', a, b, c⟩ := h3 k x hk
          exact ⟨j, e', (hjs _ _ _).2 (Or.inl a), (hent _ _).2 (Or.inl b), c⟩
        · exact ⟨st.entries.length, _, (hjs _ _ _).2 (Or.inr ⟨rfl, rfl⟩), (hent _ _).2 (Or.inr ⟨rfl, rfl⟩), rfl⟩
      · intro e' he'
        rcases List.mem_append.1 he' with he' | he'
        · obtain ⟨x, hx, hx2⟩ := h4 e' he'
          exact ⟨x, by simp [hx], hx2⟩
        · exact ⟨i, by simp, by simpa using he'⟩
      · rw [List.map_append, List.nodup_append]
        refine ⟨h5, by simp, ?_⟩
        intro a ha b hb hab
        simp only [List.map_cons, List.map_nil, List.mem_singleton] at hb
        obtain ⟨e', he', rfl⟩ := List.mem_map.1 ha
        obtain ⟨j, hj⟩ := List.mem_iff_getElem?.1 he'
        exact hnd' j ⟨e', hj, hab.trans hb⟩
      · intro k x j hk hj hfirst
        rcases hsplit k x hk with hk | ⟨rfl, rfl⟩
        · have hklt := (List.getElem?_eq_some_iff.1 hk).1
          rcases (hjs _ _ _).1 hj with hj | ⟨h, _⟩
          · exact (hent _ _).2 (Or.inl (h6 k x j hk hj (fun k0 hk0 hc => hfirst k0 hk0 ((hjs _ _ _).2 (Or.inl hc)))))
          · omega
        · rcases (hjs _ _ _).1 hj with hj | ⟨_, rfl⟩
          · have := hjlt _ _ hj; omega
          · exact (hent _ _).2 (Or.inr ⟨rfl, rfl⟩)
      · intro k j hj j0 hj0
        rcases (hjs _ _ _).1 hj with hj | ⟨rfl, rfl⟩
        · obtain ⟨k0, a, b⟩ := h7 k j hj j0 hj0
          exact ⟨k0, a, (hjs _ _ _).2 (Or.inl b)⟩
        · obtain ⟨k0, hk0⟩ := h9 j0 hj0
          exact ⟨k0, hjlt _ _ hk0, (hjs _ _ _).2 (Or.inl hk0)⟩
      · rw [h8, List.zipIdx_append]
        simp
      · intro j hj
        simp only [List.length_append, List.length_cons, List.length_nil] at hj
        by_cases hjl : j < st.entries.length
        · obtain ⟨k, hk⟩ := h9 j hjl
          exact ⟨k, (hjs _ _ _).2 (Or.inl hk)⟩
        · exact ⟨ops.length, (hjs _ _ _).2 (Or.inr ⟨rfl, by omega⟩)⟩

theorem setEntries_frame {cat : Catalogue} {name : String} {si : Int} {s : Subset} {d : Nat} {es : List FileEntry}
    (hs : cat.datasubset name si = some s) (hd : cat.datasetindex name = some d) :
    (cat.setEntries name si es).datasubset name si = some { s with entries := es } ∧
    subsetAt (cat.setEntries name si es) d si.toNat = some { s with entries := es } ∧
    (∀ d' s', (d', s') ≠ (d, si.toNat) → subsetAt (cat.setEntries name si es) d' s' = subsetAt cat d' s') ∧
    (cat.setEntries name si es).datasets.map (fun ds => (ds.name, ds.path, ds.subsets.length)) =
      cat.datasets.map (fun ds => (ds.name, ds.path, ds.subsets.length)) := by
  obtain ⟨d', hd', hsi, hat, ds, hds, hdn⟩ := datasetindex_of_subset hs
  rw [hd] at hd'; cases hd'
  have hsub : ds.subset si = some s := by
    unfold subsetAt at hat
    rw [hds] at hat
    simp only [Option.bind_some] at hat
    have := (List.getElem?_eq_some_iff.1 hat).1
    unfold DataSet.subset
    rw [if_pos ⟨hsi, by omega⟩]
    exact hat
  unfold Catalogue.setEntries
  rw [hd]
  simp only
  have hsubs : ds.subsets[si.toNat]? = some s := by
    unfold subsetAt at hat
    rw [hds] at hat
    simpa using hat
  have h2 : subsetAt { datasets := cat.datasets.modify d (fun ds =>
        { ds with subsets := ds.subsets.modify si.toNat (fun s => { s with entries := es }) }) } d si.toNat
        = some { s with entries := es } := by
    simp [subsetAt, hds, hsubs]
  refine ⟨?_, h2, ?_, ?_⟩
  · have hidx : (Catalogue.datasetindex { datasets := cat.datasets.modify d (fun ds =>
        { ds with subsets := ds.subsets.modify si.toNat (fun s => { s with entries := es }) }) } name) = some d := by
      unfold Catalogue.datasetindex at hd ⊢
      rw [List.findIdx?_eq_some_iff_getElem] at hd ⊢
      obtain ⟨hk, hp, hlt⟩ := hd
      refine ⟨by simpa using hk, ?_, ?_⟩
      · simp only [List.getElem_modify, if_true]; exact hp
      · intro j hj
        have hne : d ≠ j := by omega
        simp only [List.getElem_modify, hne, if_false]
        exact hlt j hj
    have hfind : (Catalogue.dataset { datasets := cat.datasets.modify d (fun ds =>
        { ds with subsets := ds.subsets.modify si.toNat (fun s => { s with entries := es }) }) } name) =
        some { ds with subsets := ds.subsets.modify si.toNat (fun s => { s with entries := es }) } := by
      unfold Catalogue.datasetindex at hidx
      unfold Catalogue.dataset
      rw [List.find?_eq_some_iff_getElem]
      rw [List.findIdx?_eq_some_iff_getElem] at hidx
      obtain ⟨hk, hp, hlt⟩ := hidx
      refine ⟨?_, d, hk, ?_, ?_⟩
      · simpa using hdn
      · simp only [List.getElem_modify, if_true]
        have : cat.datasets[d]'(by simpa using hk) = ds := (List.getElem?_eq_some_iff.1 hds).2
        rw [this]
      · intro j hj; simpa using hlt j hj
    unfold Catalogue.datasubset
    rw [hfind]
    simp only
    unfold DataSet.subset
    have hlen := (List.getElem?_eq_some_iff.1 hsubs).1
    rw [if_pos ⟨hsi, by simp; omega⟩]
    simp [hsubs]
  · intro d' s' hne
    unfold subsetAt
    simp only [List.getElem?_modify]
    by_cases hdd : d = d'
    · subst hdd
      rw [hds]
      have hss : si.toNat ≠ s' := by
        intro h; apply hne; rw [h]
      simp [List.getElem?_modify, hss]
    · simp [hdd]
  · apply List.ext_getElem?
    intro k
    simp only [List.getElem?_map, List.getElem?_modify]
    cases cat.datasets[k]? with
    | none => rfl
    | some x => by_cases hdd : d = k <;> simp [hdd]

theorem missing_iff {inp : InputFileList} {step : Step} {p : List String} {es : List FileEntry}
    {g : List (Int × List Nat)} (hg : groupsOf step p es = .ok g) (d : Int) (hna : inp.missingData ≠ .allowed) (i : Nat) :
    i ∈ missingOf ((List.range step.count).map (stepRefs inp d g)) ↔ i < step.count ∧ ¬ HasFile step p es i := by
  rw [mem_missingOf, List.getElem?_map]
  by_cases hi : i < step.count
  · obtain ⟨js, hsel, hdg⟩ := groups_lookup hg i hi
    rw [List.getElem?_range hi, ← selected_hasFile hsel]
    simp only [Option.map_some, Option.some.injEq, hi, true_and, stepRefs, hdg]
    by_cases hj : js = []
    · simp [hj, hna]
    · rw [if_neg hj]
      simp only [List.flatMap_eq_nil_iff, hj, iff_false]
      obtain ⟨j, hj⟩ := List.exists_mem_of_ne_nil _ hj
      intro hc
      have := hc (j : Int) (List.mem_map.2 ⟨j, hj, rfl⟩)
      simp at this
  · have : (List.range step.count)[i]? = none := by simp; omega
    simp [this, hi]

/-- What a successful resolution tells about the policy. -/
theorem findReferences_policy {inp : InputFileList} {skip skip' : List Bool} {cat : Catalogue} {step : Step}
    {refs : List (List Int)} (h : findReferences inp skip cat step = .ok (refs, skip')) (hl : skip.length = step.count) :
    ∃ s p, cat.datasubset inp.datasetname inp.subsetindex = some s ∧ s.patterns = some p ∧
      skip'.length = step.count ∧
      (∀ i < step.count, (skip'[i]? = some true ↔
        (skip[i]? = some true ∨ (inp.missingData = .skip ∧ ¬ HasFile step p s.entries i)))) ∧
      (inp.missingData = .notAllowed → ∀ i < step.count, HasFile step p s.entries i) := by
  obtain ⟨s, p, d, g, h1, h2, h3, h4, h5⟩ := findReferences_ok h
  refine ⟨s, p, h1, h3, ?_⟩
  cases hm : inp.missingData with
  | notAllowed =>
    have hmiss := missing_iff h4 (d : Int) (show inp.missingData ≠ .allowed by simp [hm])
    simp only [finish, hm] at h5
    split at h5
    · cases h5
    · rename_i hlen
      cases h5
      refine ⟨hl, by simp, ?_⟩
      intro _ i hi
      apply Classical.byContradiction
      intro hn
      exact hlen (List.length_pos_of_mem ((hmiss i).2 ⟨hi, hn⟩))
  | skip =>
    have hmiss := missing_iff h4 (d : Int) (show inp.missingData ≠ .allowed by simp [hm])
    obtain ⟨sk', e1, e2, e3⟩ := foldlM_skip (missingOf ((List.range step.count).map (stepRefs inp (d : Int) g))) skip
      (by intro i hi; rw [hl]; exact ((hmiss i).1 hi).1)
    simp only [finish, hm, e1, Except.ok.injEq, Prod.mk.injEq] at h5
    obtain ⟨_, rfl⟩ := h5
    refine ⟨by omega, ?_, by simp⟩
    intro i hi
    have hb : skip[i]? = some skip[i] := by simp
    rw [e3 i _ hb, hb]
    simp only [Option.some.injEq, Bool.or_eq_true, decide_eq_true_eq, hmiss, hi, true_and]
  | allowed =>
    simp only [finish, hm, Except.ok.injEq, Prod.mk.injEq] at h5
    obtain ⟨_, rfl⟩ := h5
    exact ⟨hl, by simp, by simp⟩
  | other =>
    simp only [finish, hm, Except.ok.injEq, Prod.mk.injEq] at h5
    obtain ⟨_, rfl⟩ := h5
    exact ⟨hl, by simp, by simp⟩

end Verif.Eumopps.Placeholder
