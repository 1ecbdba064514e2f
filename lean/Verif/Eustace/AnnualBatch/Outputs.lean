import Verif.Eustace.AnnualBatch.ByName

/-! C100: output files of batches of a year.  C101: day numbers of daily steps. -/

namespace Verif.Eustace.AnnualBatch

open Verif Verif.Py Verif.Calendar Verif.Eumopps.Catalogue Verif.Eumopps.Placeholder Verif.Eumopps.Placeholder.Spec Verif.Eumopps.Periods
  Verif.Eumopps.Time Verif.Eumopps.Names

/-! ### Outputs -/

/-- Name and time of the output of a day. -/
def IsOutput (p : List String) (D : Int) (e : FileEntry) : Prop :=
  filename (p.map String.toList) ⟨dateOf (dayStart D), 0, 0, 0⟩ = .ok e.name.toList ∧ e.time = some (dayStart D)

theorem dayStart_mod (D : Int) : dayStart D % 86400000000 = 0 := by
  rw [dayStart_eq]
  have e := epoch_mod'
  generalize epoch = E at *
  omega

/-- The output of a day, as made by the code. -/
theorem output_entry {p : List String} (hp : p ≠ []) (D : Int) :
    ∃ e, (filename (p.map String.toList) (dateTimeOf (numberToDays epoch (D : ℚ)))).bind (fun name =>
      (.ok ⟨String.ofList name, some (numberToDays epoch (D : ℚ))⟩ : Except PyErr FileEntry)) = .ok e ∧ IsOutput p D e := by
  rw [numberToDays_int, dateTime_midnight (dayStart_mod D)]
  obtain ⟨n, hn⟩ := filename_total hp ⟨dateOf (dayStart D), 0, 0, 0⟩
  rw [hn, bind_ok]
  exact ⟨_, rfl, by rw [IsOutput, hn]; simp⟩

theorem unique_ne_nil {p : List String} (h : dailyUnique (p.map String.toList) = true) : p ≠ [] := by
  rintro rfl
  revert h
  decide

/-- The new entries of an operation: one for each of its days. -/
theorem entries_ok {start stop : Int} (hs : start % secUs = 0) (he : stop % secUs = 0) {p : List String}
    (hu : dailyUnique (p.map String.toList) = true) (i : Nat) :
    ∃ new, outputEntries start stop p i = .ok new ∧
      ∀ days, IsDays start stop ((dateOf start).year + i) days → List.Forall₂ (IsOutput p) days new := by
  obtain ⟨days, a1, a2⟩ := available_floor hs he start (i : Int) (by omega)
  rw [show (((dateOf start).year : Int) + (i : Int)).toNat = (dateOf start).year + i by omega] at a2
  obtain ⟨new, hnew⟩ := mapM_total (l := days) (f := fun D : Int => (filename (p.map String.toList) (dateTimeOf (numberToDays epoch (D : ℚ)))).bind
      (fun name => (.ok ⟨String.ofList name, some (numberToDays epoch (D : ℚ))⟩ : Except PyErr FileEntry)))
    (fun D _ => by
      obtain ⟨e, h, _⟩ := output_entry (unique_ne_nil hu) D
      exact ⟨e, h⟩)
  obtain ⟨h1, h2⟩ := mapM_ok hnew
  refine ⟨new, ?_, fun days' hd' => ?_⟩
  · unfold outputEntries
    rw [if_pos hu, a1, bind_ok]
    exact hnew
  · rw [hd'.unique a2, List.forall₂_iff_get]
    refine ⟨h1.symm, fun k hk hk' => ?_⟩
    obtain ⟨e, e1, e2⟩ := h2 k _ (List.getElem?_eq_getElem hk)
    obtain ⟨e', e3, e4⟩ := output_entry (unique_ne_nil hu) days[k]
    rw [e3] at e2
    injection e2 with e2
    rw [List.getElem?_eq_getElem hk'] at e1
    injection e1 with e1
    show IsOutput p days[k] new[k]
    rw [e1, ← e2]
    exact e4

/-- A step whose outputs are the given list. -/
def listStep (E : List FileEntry) : Step where
  count := E.length
  indexAtTime := fun _ => .error .other
  timeAtIndex := fun _ => .error .other
  createOutputEntry := fun _ i => E.getD i ⟨"", none⟩
  isUniquelyDefinedBy := fun _ => true

/-- Adding entries is the loop of the daily placeholder over the same entries. -/
theorem addEntries_fold (E : List FileEntry) (d si : Int) : ∀ (idx : List Nat) (st : OutState) (r : List (List Int)),
    idx.foldl (outputStep (listStep E) [] d si) ⟨st.entries, st.names, r⟩ =
      ⟨(addEntries st (idx.map fun i => E.getD i ⟨"", none⟩)).1.entries, (addEntries st (idx.map fun i => E.getD i ⟨"", none⟩)).1.names,
        r ++ (addEntries st (idx.map fun i => E.getD i ⟨"", none⟩)).2.map fun j : Nat => [d, si, (j : Int)]⟩
  | [], st, r => by simp [addEntries]
  | i :: idx, st, r => by
    rw [List.foldl_cons, List.map_cons]
    have hstep : outputStep (listStep E) [] d si ⟨st.entries, st.names, r⟩ i =
        ⟨(addEntry st (E.getD i ⟨"", none⟩)).1.entries, (addEntry st (E.getD i ⟨"", none⟩)).1.names,
          r ++ [[d, si, ((addEntry st (E.getD i ⟨"", none⟩)).2 : Int)]]⟩ := by
      unfold outputStep addEntry
      simp only [listStep]
      cases dictGet st.names (E.getD i ⟨"", none⟩).name <;> rfl
    rw [hstep, addEntries_fold E d si idx]
    simp only [addEntries, List.map_cons, List.append_assoc, List.singleton_append]

theorem addEntries_append : ∀ (a b : List FileEntry) (st : OutState),
    addEntries st (a ++ b) = ((addEntries (addEntries st a).1 b).1, (addEntries st a).2 ++ (addEntries (addEntries st a).1 b).2)
  | [], b, st => by simp [addEntries]
  | x :: a, b, st => by
    rw [List.cons_append, addEntries, addEntries_append a b, addEntries]
    rfl

theorem addEntries_length : ∀ (a : List FileEntry) (st : OutState), (addEntries st a).2.length = a.length
  | [], _ => rfl
  | x :: a, st => by unfold addEntries; simp [addEntries_length a]

/-- The loop over operations. -/
theorem outputLoop_ok {start stop : Int} {p : List String} {new : Nat → List FileEntry} (hn : ∀ i, outputEntries start stop p i = .ok (new i))
    (d si : Int) : ∀ (ops : List Nat) (st : OutState), ∃ js : List (List Nat),
      outputLoop start stop p d si st ops = .ok ((addEntries st (ops.flatMap new)).1, js.map fun l => triples d si (l.map fun j : Nat => (j : Int))) ∧
      js.flatten = (addEntries st (ops.flatMap new)).2 ∧ List.Forall₂ (fun i l => List.length l = (new i).length) ops js
  | [], st => ⟨[], rfl, rfl, .nil⟩
  | i :: ops, st => by
    obtain ⟨js, h1, h2, h3⟩ := outputLoop_ok hn d si ops (addEntries st (new i)).1
    refine ⟨(addEntries st (new i)).2 :: js, ?_, ?_, .cons (addEntries_length _ _) h3⟩
    · unfold outputLoop
      rw [hn i, bind_ok, h1, bind_ok, List.flatMap_cons, addEntries_append]
      simp [triples, List.flatMap_map]
    · rw [List.flatten_cons, h2, List.flatMap_cons, addEntries_append]

/-- What adding entries to an empty list gives. -/
theorem addEntries_spec (E : List FileEntry) :
    List.Forall₂ (fun e j => ∃ e', (addEntries ⟨[], []⟩ E).1.entries[j]? = some e' ∧ e'.name = e.name) E (addEntries ⟨[], []⟩ E).2 ∧
    ((addEntries ⟨[], []⟩ E).1.entries.map (·.name)).Nodup ∧ (∀ e ∈ (addEntries ⟨[], []⟩ E).1.entries, e ∈ E) ∧
    (∀ e ∈ E, ∃ e' ∈ (addEntries ⟨[], []⟩ E).1.entries, e'.name = e.name) := by
  have hmap : ((List.range E.length).map fun i => E.getD i ⟨"", none⟩) = E := by
    apply List.ext_getElem?
    intro i
    rw [List.getElem?_map]
    by_cases hi : i < E.length
    · rw [List.getElem?_range hi, Option.map_some, List.getD_eq_getElem?_getD, List.getElem?_eq_getElem hi]; rfl
    · rw [List.getElem?_eq_none (by simpa using hi), List.getElem?_eq_none (by simpa using hi)]; rfl
  have hfold := addEntries_fold E 0 0 (List.range E.length) ⟨[], []⟩ []
  rw [hmap] at hfold
  obtain ⟨js, i1, i2, i3, i4, i5, _⟩ := output_loop (listStep E) [] 0 0 (List.range E.length)
  rw [hfold] at i1 i3 i4 i5
  simp only [List.nil_append] at i1 i3 i4 i5
  have hjs : js = (addEntries ⟨[], []⟩ E).2 := by
    have inj : Function.Injective fun j : Nat => [(0 : Int), 0, (j : Int)] := by
      intro a b h
      simpa using h
    exact ((List.map_injective_iff.2 inj) i1).symm
  subst hjs
  refine ⟨?_, i5, ?_, ?_⟩
  · rw [List.forall₂_iff_get]
    refine ⟨(addEntries_length _ _).symm, fun k hk hk' => ?_⟩
    obtain ⟨j, e, h1, h2, h3⟩ := i3 k k (by simp [hk])
    refine ⟨e, ?_, ?_⟩
    · rw [List.getElem?_eq_getElem hk'] at h1
      injection h1 with h1
      show (addEntries ⟨[], []⟩ E).1.entries[(addEntries ⟨[], []⟩ E).2[k]]? = _
      rw [h1]
      exact h2
    · rw [h3]
      simp [listStep, hk]
  · intro e he
    obtain ⟨i, hi, rfl⟩ := i4 e he
    have hi' : i < E.length := by simpa using hi
    simp [listStep, hi']
  · intro e he
    obtain ⟨k, hk, rfl⟩ := List.mem_iff_getElem.1 he
    obtain ⟨j, e', _, h2, h3⟩ := i3 k k (by simp [hk])
    exact ⟨e', List.mem_of_getElem? h2, by rw [h3]; simp [listStep, hk]⟩

/-- Splitting a relation between flattened lists. -/
theorem forall₂_flatten {α β γ : Type} {R : α → β → Prop} {f : γ → List α} : ∀ {ops : List γ} {js : List (List β)},
    List.Forall₂ (fun i l => List.length l = (f i).length) ops js → List.Forall₂ R (ops.flatMap f) js.flatten →
    List.Forall₂ (fun i l => List.Forall₂ R (f i) l) ops js
  | [], [], _, _ => .nil
  | i :: ops, l :: js, .cons h1 h2, h => by
    rw [List.flatMap_cons, List.flatten_cons] at h
    have ht := List.forall₂_take (f i).length h
    have hd := List.forall₂_drop (f i).length h
    rw [List.take_left, ← h1, List.take_left] at ht
    rw [List.drop_left, ← h1, List.drop_left] at hd
    exact .cons ht (forall₂_flatten h2 hd)

theorem forall₂_comp {α β γ : Type} {R : α → β → Prop} {S : β → γ → Prop} : ∀ {a : List α} {b : List β} {c : List γ},
    List.Forall₂ R a b → List.Forall₂ S b c → List.Forall₂ (fun x z => ∃ y, R x y ∧ S y z) a c
  | _, _, _, .nil, .nil => .nil
  | _, _, _, .cons h1 h2, .cons h3 h4 => .cons ⟨_, h1, h3⟩ (forall₂_comp h2 h4)

/-- **C100.** For patterns with year, month and day, outputs of the batches of any years: every operation is given one reference for each
of its days, in order, to an entry with the name of the day; entries have different names, and each is the output of a day of an operation;
nothing else in the catalogue changes. -/
theorem c100_outputs {name : String} {si : Int} {cat : Catalogue} {start stop : Int} {ops : List Nat} {s : Subset} {p : List String}
    (hsub : cat.datasubset name si = some s) (hempty : s.entries = []) (hpat : s.patterns = some p)
    (hu : dailyUnique (p.map String.toList) = true) (hs : start % secUs = 0) (he : stop % secUs = 0) :
    ∃ (d : Nat) (es : List FileEntry) (js : List (List Nat)) (cat' : Catalogue), cat.datasetindex name = some d ∧
      resolveOutput name si cat start stop ops = .ok (js.map fun l => triples d si (l.map fun j : Nat => (j : Int)), cat') ∧
      List.Forall₂ (fun i l => ∀ days, IsDays start stop ((dateOf start).year + i) days →
        List.Forall₂ (fun D j => ∃ e o, es[j]? = some e ∧ IsOutput p D o ∧ e.name = o.name) days l) ops js ∧
      (es.map (·.name)).Nodup ∧
      (∀ e ∈ es, ∃ i ∈ ops, ∃ days D, IsDays start stop ((dateOf start).year + i) days ∧ D ∈ days ∧ IsOutput p D e) ∧
      cat'.datasubset name si = some { s with entries := es } ∧
      (∀ d' s', (d', s') ≠ (d, si.toNat) → subsetAt cat' d' s' = subsetAt cat d' s') ∧
      cat'.datasets.map (fun ds => (ds.name, ds.path, ds.subsets.length)) = cat.datasets.map (fun ds => (ds.name, ds.path, ds.subsets.length)) := by
  obtain ⟨d, hd, _⟩ := datasetindex_of_subset hsub
  choose new hnew hday using fun i => entries_ok hs he hu i
  obtain ⟨js, j1, j2, j3⟩ := outputLoop_ok hnew (d : Int) si ops ⟨[], []⟩
  obtain ⟨a1, a2, a3, a4⟩ := addEntries_spec (ops.flatMap new)
  obtain ⟨f1, f2, f3, f4⟩ := setEntries_frame (es := (addEntries ⟨[], []⟩ (ops.flatMap new)).1.entries) hsub hd
  refine ⟨d, (addEntries ⟨[], []⟩ (ops.flatMap new)).1.entries, js, cat.setEntries name si (addEntries ⟨[], []⟩ (ops.flatMap new)).1.entries,
    hd, ?_, ?_, a2, ?_, f1, f3, f4⟩
  · unfold resolveOutput
    rw [hsub, hd]
    simp only [hempty, hpat, List.length_nil, gt_iff_lt, lt_irrefl, if_false]
    rw [j1, bind_ok]
  · rw [← j2] at a1
    refine (forall₂_flatten j3 a1).imp fun i l h days hdays => ?_
    refine (forall₂_comp (hday i days hdays) h).imp ?_
    rintro D j ⟨o, h1, e, h2, h3⟩
    exact ⟨e, o, h2, h1, h3⟩
  · intro e he'
    obtain ⟨i, hi, hin⟩ := List.mem_flatMap.1 (a3 e he')
    obtain ⟨l, _, hl⟩ := available_floor hs he start (i : Int) (by omega)
    rw [show (((dateOf start).year : Int) + (i : Int)).toNat = (dateOf start).year + i by omega] at hl
    have hf := hday i l hl
    obtain ⟨k, hk, rfl⟩ := List.mem_iff_getElem.1 hin
    have hk' : k < l.length := by rw [hf.length_eq]; exact hk
    exact ⟨i, hi, l, l[k], hl, List.getElem_mem hk', (List.forall₂_iff_get.1 hf).2 k hk' hk⟩

/-- **C100.** If each field lies within one pattern and no pattern but the first is absolute (years below 10000), every day has its own
entry, with its name and time: no two days of the operations share an output. -/
theorem c100_own_file_partial {name : String} {si : Int} {cat : Catalogue} {start stop : Int} {ops : List Nat} {s : Subset} {q : String} {qs : List String}
    (hsub : cat.datasubset name si = some s) (hempty : s.entries = []) (hpat : s.patterns = some (q :: qs))
    (habs : ∀ r ∈ qs, r.toList.head? ≠ some '/') (hY : ∃ r ∈ q :: qs, HasField 'Y' r.toList) (hm : ∃ r ∈ q :: qs, HasField 'm' r.toList)
    (hd : ∃ r ∈ q :: qs, HasField 'd' r.toList) (hs : start % secUs = 0) (he : stop % secUs = 0)
    (hlate : ∀ i ∈ ops, (dateOf start).year + i < 10000) :
    ∃ (d : Nat) (es : List FileEntry) (js : List (List Nat)) (cat' : Catalogue), cat.datasetindex name = some d ∧
      resolveOutput name si cat start stop ops = .ok (js.map fun l => triples d si (l.map fun j : Nat => (j : Int)), cat') ∧
      cat'.datasubset name si = some { s with entries := es } ∧
      List.Forall₂ (fun i l => ∀ days, IsDays start stop ((dateOf start).year + i) days →
        List.Forall₂ (fun D j => ∃ e, es[j]? = some e ∧ IsOutput (q :: qs) D e) days l) ops js := by
  have field : ∀ c, (∃ r ∈ q :: qs, HasField c r.toList) → hasSub ['%', c] ((q :: qs).map String.toList).flatten = true := by
    rintro c ⟨r, hr, a, b, hab⟩
    rw [hasSub_field]
    obtain ⟨u, w, e⟩ := List.append_of_mem (List.mem_map_of_mem (f := String.toList) hr)
    exact ⟨u.flatten ++ a, b ++ w.flatten, by simp only [e, hab, List.flatten_append, List.flatten_cons, List.append_assoc, List.cons_append]⟩
  have hu : dailyUnique ((q :: qs).map String.toList) = true := by
    unfold dailyUnique
    simp only [Bool.and_eq_true]
    exact ⟨⟨field 'Y' hY, field 'm' hm⟩, field 'd' hd⟩
  obtain ⟨d, es, js, cat', h1, h2, h3, h4, h5, h6, _⟩ := c100_outputs (ops := ops) hsub hempty hpat hu hs he
  refine ⟨d, es, js, cat', h1, h2, h6, ?_⟩
  -- days of operations with equal names are equal
  have hinj : ∀ i ∈ ops, ∀ i' ∈ ops, ∀ days days' D D' o o', IsDays start stop ((dateOf start).year + i) days →
      IsDays start stop ((dateOf start).year + i') days' → D ∈ days → D' ∈ days' → IsOutput (q :: qs) D o → IsOutput (q :: qs) D' o' →
      o.name = o'.name → D = D' := by
    intro i hi i' hi' days days' D D' o o' g g' hD hD' ho ho' heq
    have hval : ∀ i ∈ ops, ∀ days D, IsDays start stop ((dateOf start).year + i) days → D ∈ days →
        0 ≤ dayStart D ∧ (dateOf (dayStart D)).year < 10000 := by
      intro i hi days D g hD
      have a := ((g.mem D).1 hD).1
      have hnn : 0 ≤ dayStart D := le_trans (yearStart_nonneg _) a.1
      refine ⟨hnn, ?_⟩
      rw [(year_unique hnn).2 a]
      exact hlate i hi
    obtain ⟨v1, v2⟩ := hval i hi days D g hD
    obtain ⟨v1', v2'⟩ := hval i' hi' days' D' g' hD'
    have hmem : ∀ c, (∃ r ∈ q :: qs, HasField c r.toList) → ∃ r ∈ q.toList :: qs.map String.toList, HasField c r := by
      rintro c ⟨r, hr, hc⟩
      exact ⟨r.toList, by simpa using List.mem_map_of_mem (f := String.toList) hr, hc⟩
    have hdate : dateOf (dayStart D) = dateOf (dayStart D') := by
      by_contra hne
      refine c16_names_differ_partial (p := q.toList) (ps := qs.map String.toList) ?_ (hmem 'Y' hY) (hmem 'm' hm) (hmem 'd' hd)
        (t := ⟨dateOf (dayStart D), 0, 0, 0⟩) (t' := ⟨dateOf (dayStart D'), 0, 0, 0⟩) (dateOf_valid _) (dateOf_valid _) v2 v2' hne ?_
      · intro r hr
        obtain ⟨r', hr', rfl⟩ := List.mem_map.1 hr
        exact habs r' hr'
      · have a := ho.1
        have b := ho'.1
        rw [← heq] at b
        rw [List.map_cons] at a b
        rw [a, b]
    -- a date determines its midnight
    have hnum : ∀ E : Int, 0 ≤ dayStart E → midnight (dateOf (dayStart E)) = dayStart E := by
      intro E hE
      have hmod := dayStart_mod E
      generalize dayStart E = x at *
      unfold midnight dateOf
      rw [(ofNumber_spec _).2]
      have hd : (dayUs : Int) = 86400000000 := rfl
      rw [hd]
      omega
    have : dayStart D = dayStart D' := by rw [← hnum D v1, ← hnum D' v1', hdate]
    by_contra hne
    rcases lt_or_gt_of_ne hne with h | h
    · exact absurd (dayStart_lt.2 h) (by omega)
    · exact absurd (dayStart_lt.2 h) (by omega)
  rw [List.forall₂_iff_get] at h3 ⊢
  refine ⟨h3.1, fun k hk hk' days hdays => ?_⟩
  have hf := h3.2 k hk hk' days hdays
  rw [List.forall₂_iff_get] at hf ⊢
  refine ⟨hf.1, fun m hm hm' => ?_⟩
  obtain ⟨e, o, e1, e2, e3⟩ := hf.2 m hm hm'
  refine ⟨e, e1, ?_⟩
  obtain ⟨i', hi', days', D', g1, g2, g3⟩ := h5 e (List.mem_of_getElem? e1)
  have := hinj _ (List.get_mem ops ⟨k, hk⟩) i' hi' days days' _ D' o e hdays g1 (List.get_mem days ⟨m, hm⟩) g2 e2 g3 e3.symm
  rw [this]
  exact g3

/-- **C100.** Patterns without year, month or day are refused, whatever the catalogue. -/
theorem c100_refused {start stop : Int} {p : List String} {d si : Int} {st : OutState} (h : dailyUnique (p.map String.toList) = false) {i : Nat} {ops : List Nat} :
    outputLoop start stop p d si st (i :: ops) = .error .runtimeError := by
  have : outputEntries start stop p i = .error .runtimeError := by
    unfold outputEntries
    rw [if_neg (by simp [h])]
  unfold outputLoop
  rw [this]
  rfl

/-! ### Day numbers of daily steps -/

/-- **C101.** For periods from 1850 on, the day numbers are the days with some time in the period, in order. -/
theorem c101_days {start stop : Int} (hs : start % secUs = 0) (he : stop % secUs = 0) (h0 : dayStart 0 ≤ start) (hle : start ≤ stop) :
    (stepIndices start stop).Pairwise (· < ·) ∧ ∀ D, D ∈ stepIndices start stop ↔ start < dayStart (D + 1) ∧ dayStart D ≤ stop := by
  refine ⟨sorted_range2 _ _, fun D => ?_⟩
  unfold stepIndices
  rw [mem_range2]
  have hd : (0 : ℚ) < ((dayUs : Int) : ℚ) := by norm_num [dayUs]
  rw [dayStart_eq] at h0
  have n1 : 0 ≤ daysSince start := by
    rw [daysSince_whole hs]
    refine div_nonneg ?_ hd.le
    have : (0 : Int) ≤ start - epoch := by linarith
    exact_mod_cast this
  have n2 : 0 ≤ daysSince stop := by
    rw [daysSince_whole he]
    refine div_nonneg ?_ hd.le
    have : (0 : Int) ≤ stop - epoch := by linarith
    exact_mod_cast this
  rw [intOf_nonneg n1, intOf_nonneg (by linarith), floor_daysSince hs, show daysSince stop + 1 = daysSince stop + ((1 : Int) : ℚ) by norm_num,
    Int.floor_add_intCast, floor_daysSince he, Int.lt_add_one_iff, arith_period, ← dayStart_eq, ← dayStart_eq]

theorem stepIndices_eq {start stop : Int} (hs : start % secUs = 0) (he : stop % secUs = 0) (h0 : dayStart 0 ≤ start) (hle : start ≤ stop) :
    stepIndices start stop = range2 ((start - epoch) / dayUs) ((stop - epoch) / dayUs + 1) := by
  obtain ⟨a, b⟩ := c101_days hs he h0 hle
  refine List.Perm.eq_of_pairwise (le := (· < ·)) (fun x y _ _ h1 h2 => by omega) a (sorted_range2 _ _) ?_
  rw [List.perm_ext_iff_of_nodup (a.imp fun {x y} h => by omega) ((sorted_range2 _ _).imp fun {x y} h => by omega)]
  intro D
  rw [b, mem_range2, Int.lt_add_one_iff, arith_period, dayStart_eq, dayStart_eq]

theorem length_range2 (a b : Int) : (range2 a b).length = (b - a).toNat := by unfold range2; simp

theorem arith_lengths (E start stop : Int) :
    ((start - E) % 86400000000 ≤ (stop - E) % 86400000000 → start ≤ stop →
      (((stop - E) / 86400000000 + 1 - (start - E) / 86400000000).toNat : Int) = (stop - start) / 86400000000 + 1) ∧
    ((stop - E) % 86400000000 < (start - E) % 86400000000 → start ≤ stop →
      (((stop - E) / 86400000000 + 1 - (start - E) / 86400000000).toNat : Int) = (stop - start) / 86400000000 + 1 + 1) := by
  constructor <;> intro h1 h2 <;> omega

theorem lengths {start stop : Int} (hs : start % secUs = 0) (he : stop % secUs = 0) (h0 : dayStart 0 ≤ start) (hle : start ≤ stop) :
    ((start - dayStart 0) % dayUs ≤ (stop - dayStart 0) % dayUs → ((stepIndices start stop).length : Int) = dailyCount start stop) ∧
    ((stop - dayStart 0) % dayUs < (start - dayStart 0) % dayUs → ((stepIndices start stop).length : Int) = dailyCount start stop + 1) := by
  have hz : dayStart 0 = epoch := by rw [dayStart_eq]; omega
  have hw : WholeSeconds start stop := ⟨(stop - start) / secUs, by unfold secUs at *; omega⟩
  have hi := dailyIndex_whole hw
  rw [if_pos hle] at hi
  unfold dailyIndex at hi
  rw [stepIndices_eq hs he h0 hle, length_range2, dailyCount, hi, hz]
  have hd : (dayUs : Int) = 86400000000 := rfl
  rw [hd]
  have := arith_lengths epoch start stop
  exact ⟨fun h => this.1 h hle, fun h => this.2 h hle⟩

/-- **C101, partial.** If the end is not earlier in its day than the start in its own, there is one day number for each daily step: the day
which has the time of the step.  Missing from the full claim: other periods, see `c101_violated`. -/
theorem c101_steps_partial {start stop : Int} (hs : start % secUs = 0) (he : stop % secUs = 0) (h0 : dayStart 0 ≤ start) (hle : start ≤ stop)
    (hr : (start - dayStart 0) % dayUs ≤ (stop - dayStart 0) % dayUs) :
    ((stepIndices start stop).length : Int) = dailyCount start stop ∧
    ∀ i : Nat, (i : Int) < dailyCount start stop →
      ∃ D, (stepIndices start stop)[i]? = some D ∧ dayStart D ≤ dailyTime start i ∧ dailyTime start i < dayStart (D + 1) := by
  have hl := (lengths hs he h0 hle).1 hr
  refine ⟨hl, fun i hi => ⟨(start - epoch) / dayUs + i, ?_, ?_⟩⟩
  · rw [← hl] at hi
    rw [stepIndices_eq hs he h0 hle] at hi ⊢
    rw [length_range2] at hi
    unfold range2
    rw [List.getElem?_map, List.getElem?_range (by omega)]
    rfl
  · rw [(c12_inverse start i).1, dayStart_eq, dayStart_eq]
    generalize epoch = E
    unfold dayUs
    constructor <;> omega

/-- **C101, negative result.** If the end is earlier in its day than the start in its own, there is one day number more than daily steps. -/
theorem c101_violated {start stop : Int} (hs : start % secUs = 0) (he : stop % secUs = 0) (h0 : dayStart 0 ≤ start) (hle : start ≤ stop)
    (hr : (stop - dayStart 0) % dayUs < (start - dayStart 0) % dayUs) :
    ((stepIndices start stop).length : Int) = dailyCount start stop + 1 :=
  (lengths hs he h0 hle).2 hr

/-! ### Cases which meet the hypotheses -/

theorem epoch_sec : epoch % secUs = 0 := by
  have := epoch_mod'
  generalize epoch = E at *
  unfold secUs
  omega

theorem arith_example (E : Int) (h : E % 1000000 = 0) :
    (E + 43200 * 1000000) % 1000000 = 0 ∧ (E + 194400 * 1000000) % 1000000 = 0 ∧ (E + 820800 * 1000000) % 1000000 = 0 ∧
    (E + 194400 * 1000000 - E) % 86400000000 < (E + 43200 * 1000000 - E) % 86400000000 ∧
    (E - E) % 86400000000 ≤ (E + 820800 * 1000000 - E) % 86400000000 := by
  omega

/-- From noon of the first day of 1850 to 6 h of the third: one day number more than steps. -/
example : ((stepIndices (epoch + 43200 * secUs) (epoch + 194400 * secUs)).length : Int) =
    dailyCount (epoch + 43200 * secUs) (epoch + 194400 * secUs) + 1 := by
  have h := arith_example epoch epoch_sec
  have hz : dayStart 0 = epoch := by rw [dayStart_eq]; omega
  have hp : (0 : Int) < secUs := by decide
  exact c101_violated h.1 h.2.1 (by rw [hz]; linarith) (by linarith) (by rw [hz]; exact h.2.2.2.1)

/-- From the first day of 1850 to noon of the tenth. -/
example : ((stepIndices epoch (epoch + 820800 * secUs)).length : Int) = dailyCount epoch (epoch + 820800 * secUs) := by
  have h := arith_example epoch epoch_sec
  have hz : dayStart 0 = epoch := by rw [dayStart_eq]; omega
  have hp : (0 : Int) < secUs := by decide
  exact (c101_steps_partial epoch_sec h.2.2.1 (by rw [hz]) (by linarith) (by rw [hz]; exact h.2.2.2.2)).1

/-- A data set of daily outputs, without entries. -/
def exampleOutputs : Catalogue :=
  { datasets := [{ name := "out", path := "/out", subsets := [{ patterns := some ["%Y/", "out_%Y%m%d.nc"], entries := [] }] }] }

/-- Outputs of the years of a period from 1 January 1850 on: hypotheses are met. -/
example (ops : List Nat) (h : ∀ i ∈ ops, (dateOf (yearStart 1850)).year + i < 10000) (stop : Int) (he : stop % secUs = 0) :=
  c100_own_file_partial (name := "out") (si := 0) (cat := exampleOutputs) (start := yearStart 1850) (stop := stop) (ops := ops)
    (q := "%Y/") (qs := ["out_%Y%m%d.nc"]) rfl rfl rfl (by decide) ⟨"%Y/", by simp, [], ['/'], by decide⟩
    ⟨"out_%Y%m%d.nc", by simp, "out_%Y".toList, "%d.nc".toList, by decide⟩ ⟨"out_%Y%m%d.nc", by simp, "out_%Y%m".toList, ".nc".toList, by decide⟩
    (arith_seconds (yearStart_mod _)).1 he h

example : dailyUnique (["%Y/", "out_%Y%m%d.nc"].map String.toList) = true := by decide

/-- A data set of daily files with one file, at 1 h of the first day of a year. -/
def exampleInputs (y : Nat) : Catalogue :=
  { datasets := [{ name := "in", path := "/in", subsets := [{ patterns := some ["%Y/", "in_%Y%m%d.nc"], entries := [⟨"in.nc", some (yearStart y + 3600 * secUs)⟩] }] }] }

theorem year_long (y : Nat) : yearStart y + 365 * 86400000000 ≤ yearStart (y + 1) := by
  have a := yearStart_length y
  have b := daysInYear_pos y
  unfold dayUs at a
  generalize yearStart y = Y at *
  generalize yearStart (y + 1) = Z at *
  omega

theorem arith_days (E Y Z D : Int) (e : E % 86400000000 = 0) (h : Y % 86400000000 = 0) (hz : Y + 365 * 86400000000 ≤ Z) :
    (D ∈ [(Y - E) / 86400000000, (Y - E) / 86400000000 + 1, (Y - E) / 86400000000 + 2]) ↔
      (Y ≤ E + D * 86400000000 ∧ E + D * 86400000000 < Z) ∧ Y < E + (D + 1) * 86400000000 ∧ E + D * 86400000000 ≤ Y + 2 * 86400000000 := by
  simp only [List.mem_cons, List.not_mem_nil, or_false]
  omega

theorem arith_file (E Y D : Int) (e : E % 86400000000 = 0) (h : Y % 86400000000 = 0) :
    (E + D * 86400000000 ≤ Y + 3600 * 1000000 ∧ Y + 3600 * 1000000 < E + (D + 1) * 86400000000) ↔ D = (Y - E) / 86400000000 := by
  omega

/-- **C63, negative result.** Three days of a year with a file for the first only, where missing data is not allowed: no error, the other days
are given as missing.  (Only years without any file are found.) -/
theorem c63_missing_day_violated (y : Nat) :
    findReferences { datasetname := "in", subsetindex := 0, missingData := .notAllowed } [false] (exampleInputs y) (yearStart y) (yearStart y + 2 * dayUs) =
      .ok ([[0, 0, 0, 0, 0, -1, 0, 0, -1]], [false]) := by
  have hm := yearStart_mod y
  have hl := year_long y
  have hnn := yearStart_nonneg y
  have hd : (dayUs : Int) = 86400000000 := rfl
  have hsu : (secUs : Int) = 1000000 := rfl
  have hstop : (yearStart y + 2 * dayUs) % secUs = 0 := by rw [hd, hsu]; omega
  have hys : (dateOf (yearStart y + 2 * dayUs)).year = y := by
    rw [year_unique (by rw [hd]; omega), hd]
    omega
  have hgood : GoodTimes [⟨"in.nc", some (yearStart y + 3600 * secUs)⟩] := by
    intro e he
    rw [List.mem_singleton] at he
    subst he
    refine ⟨_, rfl, by rw [hsu]; omega, by rw [hsu]; omega, fun y' => ?_⟩
    rw [hsu]
    rcases Nat.lt_or_ge y y' with h | h
    · have := yearStart_mono (show y + 1 ≤ y' from h)
      omega
    · have := yearStart_mono h
      omega
  obtain ⟨refs, d, r1, r2, r3, r4⟩ := c63_inputs (inp := { datasetname := "in", subsetindex := 0, missingData := .notAllowed }) (skip := [false])
    (cat := exampleInputs y) (start := yearStart y) (stop := yearStart y + 2 * dayUs) (p := ["%Y/", "in_%Y%m%d.nc"]) rfl rfl
    ⟨[], "/in_%Y%m%d.nc".toList, by decide⟩ hgood (arith_seconds hm).1 hstop (by rw [hd]; omega) (by rw [hys, year_yearStart])
    (by rw [hys, year_yearStart, if_neg (by rw [hd, hsu]; omega)]; simp)
  have hd0 : d = 0 := by
    have : (exampleInputs y).datasetindex "in" = some 0 := rfl
    rw [this] at r1
    injection r1 with r1
    exact r1.symm
  subst hd0
  rw [year_yearStart] at r3
  obtain ⟨r, rfl⟩ : ∃ r, refs = [r] := by
    match refs, r2 with
    | [r], _ => exact ⟨r, rfl⟩
  have hdays : IsDays (yearStart y) (yearStart y + 2 * dayUs) (y + 0)
      [(yearStart y - epoch) / 86400000000, (yearStart y - epoch) / 86400000000 + 1, (yearStart y - epoch) / 86400000000 + 2] := by
    refine ⟨by simp, fun D => ?_⟩
    rw [dayStart_eq, dayStart_eq, hd]
    exact arith_days epoch (yearStart y) (yearStart (y + 1)) D epoch_mod' hm hl
  obtain ⟨slots, s1, s2⟩ := (r3 0 r rfl _ hdays).1 (Or.inl ⟨_, List.mem_singleton_self _, _, rfl, by rw [hsu, Nat.add_zero]; omega⟩)
  have hfile : ∀ D j, FileOn [⟨"in.nc", some (yearStart y + 3600 * secUs)⟩] D j ↔ j = 0 ∧ D = (yearStart y - epoch) / 86400000000 := by
    intro D j
    constructor
    · rintro ⟨e, t, h1, h2, h3⟩
      cases j with
      | succ j => simp at h1
      | zero =>
        simp at h1
        subst h1
        injection h2 with h2
        rw [dayStart_eq, dayStart_eq, ← h2, hsu] at h3
        exact ⟨rfl, (arith_file epoch (yearStart y) D epoch_mod' hm).1 h3⟩
    · rintro ⟨rfl, hD⟩
      refine ⟨_, _, rfl, rfl, ?_⟩
      rw [dayStart_eq, dayStart_eq, hsu]
      exact (arith_file epoch (yearStart y) D epoch_mod' hm).2 hD
  have hslot : ∀ D v, Slot [⟨"in.nc", some (yearStart y + 3600 * secUs)⟩] D v → v = if D = (yearStart y - epoch) / 86400000000 then 0 else -1 := by
    rintro D v (⟨h1, h2⟩ | ⟨j, h1, h2, _⟩)
    · rw [if_neg (fun hD => h2 0 ((hfile D 0).2 ⟨rfl, hD⟩)), h1]
    · have := (hfile D j).1 h2
      rw [if_pos this.2, h1, this.1]
      rfl
  have hslots : slots = [0, -1, -1] := by
    generalize (yearStart y - epoch) / 86400000000 = D0 at s2 hslot
    match slots, s2 with
    | [a, b, c], .cons h1 (.cons h2 (.cons h3 .nil)) =>
      have a1 := hslot _ _ h1
      have a2 := hslot _ _ h2
      have a3 := hslot _ _ h3
      rw [if_pos rfl] at a1
      rw [if_neg (by omega)] at a2 a3
      rw [a1, a2, a3]
  have hr : r = [0, 0, 0, 0, 0, -1, 0, 0, -1] := by rw [s1, hslots]; rfl
  rw [hr] at r4
  rcases r4 with h | h
  · exact h.1
  · obtain ⟨r', hr', h0⟩ := h.2
    rw [List.mem_singleton] at hr'
    rw [hr'] at h0
    cases h0

/-- A data set with one file for all times. -/
def exampleByName : Catalogue :=
  { datasets := [{ name := "in", path := "/in", subsets := [{ patterns := some ["in.nc"], entries := [⟨"in.nc", none⟩] }] }] }

theorem no_year : ¬ HasField 'Y' (["in.nc"].map String.toList).flatten := by
  rw [← hasSub_field]
  decide

/-- Hypotheses of the theorems on files found by name, for a period in one year which begins at midnight, or at noon. -/
example (y : Nat) (start : Int) (h : start = yearStart y ∨ start = yearStart y + 43200 * secUs) :
    start % secUs = 0 ∧ (yearStart y + 2 * dayUs) % secUs = 0 ∧ 0 ≤ start ∧ start ≤ yearStart y + 2 * dayUs ∧
    exampleByName.datasubset "in" 0 = some { patterns := some ["in.nc"], entries := [⟨"in.nc", none⟩] } ∧
    [false].length = (dateOf (yearStart y + 2 * dayUs)).year - (dateOf start).year +
      (if yearStart ((dateOf (yearStart y + 2 * dayUs)).year + 1) - secUs ≤ yearStart y + 2 * dayUs then 2 else 1) := by
  have hm := yearStart_mod y
  have hl := year_long y
  have hnn := yearStart_nonneg y
  have hd : (dayUs : Int) = 86400000000 := rfl
  have hsu : (secUs : Int) = 1000000 := rfl
  rw [hsu] at h
  have hys : (dateOf (yearStart y + 2 * dayUs)).year = y := by
    rw [year_unique (by rw [hd]; omega), hd]
    omega
  have hy0 : (dateOf start).year = y := by
    rw [year_unique (by omega)]
    omega
  rw [hys, hy0, hd, hsu, if_neg (by omega)]
  refine ⟨by omega, by omega, by omega, by omega, rfl, by simp⟩

end Verif.Eustace.AnnualBatch
