import Verif.Eustace.MonthlyBatch.ByName

/-! C150: output files of batches of a month.  C101: day numbers of daily steps. -/

namespace Verif.Eustace.MonthlyBatch

open Verif Verif.Py Verif.Calendar Verif.Eumopps.Catalogue Verif.Eumopps.Placeholder Verif.Eumopps.Placeholder.Spec Verif.Eumopps.Periods
  Verif.Eumopps.Time Verif.Eumopps.Names
open Verif.Eustace.AnnualBatch (epoch daysSince range2 place searchsorted dateTimeOf nameToIndex policy addEntries dayStart FileOn
  Slot bind_ok Outcome policy_outcome midnight_mod epoch_mod' dayStart_eq arith_year arith_period floor_daysSince daysSince_midnight intOf_int
  mem_range2 sorted_range2 daysSince_whole searchsorted_get place_spec last_greatest pairwise_flatten_lt dayStart_lt numberToDays_int dictGet_mapM
  day_of_time arith_exact arith_exact' dateTime_midnight filename_total dictGet_filterMap nameDict' NamedSlots triples_length arith_seconds IsOutput
  dayStart_mod output_entry unique_ne_nil addEntries_append addEntries_length addEntries_spec forall₂_flatten forall₂_comp exampleOutputs
  arith_file exampleByName no_year)

/-! ### Outputs -/

/-- The new entries of an operation: one for each of its days. -/
theorem entries_ok {start stop : Int} (hs : start % secUs = 0) (he : stop % secUs = 0) {p : List String}
    (hu : dailyUnique (p.map String.toList) = true) (i : Nat) :
    ∃ new, outputEntries start stop p i = .ok new ∧
      ∀ days, IsDays start stop ((monthOf start) + i) days → List.Forall₂ (IsOutput p) days new := by
  obtain ⟨days, a1, a2⟩ := available_floor hs he start (i : Int) (by omega)
  rw [show (((monthOf start) : Int) + (i : Int)).toNat = (monthOf start) + i by omega] at a2
  obtain ⟨new, hnew⟩ := mapM_total (l := days) (f := fun D : Int => (filename (p.map String.toList) (dateTimeOf (numberToDays epoch (D : ℚ)))).bind
      (fun name => (.ok ⟨String.ofList name, some (numberToDays epoch (D : ℚ))⟩ : Except PyErr FileEntry)))
    (fun D _ => by
      obtain ⟨e, h, _⟩ := output_entry (unique_ne_nil hu) D
      exact ⟨e, h⟩)
  obtain ⟨h1, h2⟩ := mapM_ok hnew
  refine ⟨new, ?_, fun days' hd' => ?_⟩
  · unfold outputEntries
    rw [if_pos hu, a1, bind_ok]
    exact hnew
  · rw [hd'.unique a2, List.forall₂_iff_get]
    refine ⟨h1.symm, fun k hk hk' => ?_⟩
    obtain ⟨e, e1, e2⟩ := h2 k _ (List.getElem?_eq_getElem hk)
    obtain ⟨e', e3, e4⟩ := output_entry (unique_ne_nil hu) days[k]
    rw [e3] at e2
    injection e2 with e2
    rw [List.getElem?_eq_getElem hk'] at e1
    injection e1 with e1
    show IsOutput p days[k] new[k]
    rw [e1, ← e2]
    exact e4

/-- The loop over operations. -/
theorem outputLoop_ok {start stop : Int} {p : List String} {new : Nat → List FileEntry} (hn : ∀ i, outputEntries start stop p i = .ok (new i))
    (d si : Int) : ∀ (ops : List Nat) (st : AnnualBatch.OutState), ∃ js : List (List Nat),
      outputLoop start stop p d si st ops = .ok ((addEntries st (ops.flatMap new)).1, js.map fun l => triples d si (l.map fun j : Nat => (j : Int))) ∧
      js.flatten = (addEntries st (ops.flatMap new)).2 ∧ List.Forall₂ (fun i l => List.length l = (new i).length) ops js
  | [], st => ⟨[], rfl, rfl, .nil⟩
  | i :: ops, st => by
    obtain ⟨js, h1, h2, h3⟩ := outputLoop_ok hn d si ops (addEntries st (new i)).1
    refine ⟨(addEntries st (new i)).2 :: js, ?_, ?_, .cons (addEntries_length _ _) h3⟩
    · unfold outputLoop
      rw [hn i, bind_ok, h1, bind_ok, List.flatMap_cons, addEntries_append]
      simp [triples, List.flatMap_map]
    · rw [List.flatten_cons, h2, List.flatMap_cons, addEntries_append]

/-- **C150.** For patterns with year, month and day, outputs of the batches of any months: every operation is given one reference for each
of its days, in order, to an entry with the name of the day; entries have different names, and each is the output of a day of an operation;
nothing else in the catalogue changes. -/
theorem c150_outputs {name : String} {si : Int} {cat : Catalogue} {start stop : Int} {ops : List Nat} {s : Subset} {p : List String}
    (hsub : cat.datasubset name si = some s) (hempty : s.entries = []) (hpat : s.patterns = some p)
    (hu : dailyUnique (p.map String.toList) = true) (hs : start % secUs = 0) (he : stop % secUs = 0) :
    ∃ (d : Nat) (es : List FileEntry) (js : List (List Nat)) (cat' : Catalogue), cat.datasetindex name = some d ∧
      resolveOutput name si cat start stop ops = .ok (js.map fun l => triples d si (l.map fun j : Nat => (j : Int)), cat') ∧
      List.Forall₂ (fun i l => ∀ days, IsDays start stop ((monthOf start) + i) days →
        List.Forall₂ (fun D j => ∃ e o, es[j]? = some e ∧ IsOutput p D o ∧ e.name = o.name) days l) ops js ∧
      (es.map (·.name)).Nodup ∧
      (∀ e ∈ es, ∃ i ∈ ops, ∃ days D, IsDays start stop ((monthOf start) + i) days ∧ D ∈ days ∧ IsOutput p D e) ∧
      cat'.datasubset name si = some { s with entries := es } ∧
      (∀ d' s', (d', s') ≠ (d, si.toNat) → subsetAt cat' d' s' = subsetAt cat d' s') ∧
      cat'.datasets.map (fun ds => (ds.name, ds.path, ds.subsets.length)) = cat.datasets.map (fun ds => (ds.name, ds.path, ds.subsets.length)) := by
  obtain ⟨d, hd, _⟩ := datasetindex_of_subset hsub
  choose new hnew hday using fun i => entries_ok hs he hu i
  obtain ⟨js, j1, j2, j3⟩ := outputLoop_ok hnew (d : Int) si ops (⟨[], []⟩ : AnnualBatch.OutState)
  obtain ⟨a1, a2, a3, a4⟩ := addEntries_spec (ops.flatMap new)
  obtain ⟨f1, f2, f3, f4⟩ := setEntries_frame (es := (addEntries ⟨[], []⟩ (ops.flatMap new)).1.entries) hsub hd
  refine ⟨d, (addEntries ⟨[], []⟩ (ops.flatMap new)).1.entries, js, cat.setEntries name si (addEntries ⟨[], []⟩ (ops.flatMap new)).1.entries,
    hd, ?_, ?_, a2, ?_, f1, f3, f4⟩
  · unfold resolveOutput
    rw [hsub, hd]
    simp only [hempty, hpat, List.length_nil, gt_iff_lt, lt_irrefl, if_false]
    rw [j1, bind_ok]
  · rw [← j2] at a1
    refine (forall₂_flatten j3 a1).imp fun i l h days hdays => ?_
    refine (forall₂_comp (hday i days hdays) h).imp ?_
    rintro D j ⟨o, h1, e, h2, h3⟩
    exact ⟨e, o, h2, h1, h3⟩
  · intro e he'
    obtain ⟨i, hi, hin⟩ := List.mem_flatMap.1 (a3 e he')
    obtain ⟨l, _, hl⟩ := available_floor hs he start (i : Int) (by omega)
    rw [show (((monthOf start) : Int) + (i : Int)).toNat = (monthOf start) + i by omega] at hl
    have hf := hday i l hl
    obtain ⟨k, hk, rfl⟩ := List.mem_iff_getElem.1 hin
    have hk' : k < l.length := by rw [hf.length_eq]; exact hk
    exact ⟨i, hi, l, l[k], hl, List.getElem_mem hk', (List.forall₂_iff_get.1 hf).2 k hk' hk⟩

/-- **C150.** If each field lies within one pattern and no pattern but the first is absolute (years below 10000), every day has its own
entry, with its name and time: no two days of the operations share an output. -/
theorem c150_own_file_partial {name : String} {si : Int} {cat : Catalogue} {start stop : Int} {ops : List Nat} {s : Subset} {q : String} {qs : List String}
    (hsub : cat.datasubset name si = some s) (hempty : s.entries = []) (hpat : s.patterns = some (q :: qs))
    (habs : ∀ r ∈ qs, r.toList.head? ≠ some '/') (hY : ∃ r ∈ q :: qs, HasField 'Y' r.toList) (hm : ∃ r ∈ q :: qs, HasField 'm' r.toList)
    (hd : ∃ r ∈ q :: qs, HasField 'd' r.toList) (hs : start % secUs = 0) (he : stop % secUs = 0)
    (hlate : ∀ i ∈ ops, ((monthOf start) + i) / 12 < 10000) :
    ∃ (d : Nat) (es : List FileEntry) (js : List (List Nat)) (cat' : Catalogue), cat.datasetindex name = some d ∧
      resolveOutput name si cat start stop ops = .ok (js.map fun l => triples d si (l.map fun j : Nat => (j : Int)), cat') ∧
      cat'.datasubset name si = some { s with entries := es } ∧
      List.Forall₂ (fun i l => ∀ days, IsDays start stop ((monthOf start) + i) days →
        List.Forall₂ (fun D j => ∃ e, es[j]? = some e ∧ IsOutput (q :: qs) D e) days l) ops js := by
  have field : ∀ c, (∃ r ∈ q :: qs, HasField c r.toList) → hasSub ['%', c] ((q :: qs).map String.toList).flatten = true := by
    rintro c ⟨r, hr, a, b, hab⟩
    rw [hasSub_field]
    obtain ⟨u, w, e⟩ := List.append_of_mem (List.mem_map_of_mem (f := String.toList) hr)
    exact ⟨u.flatten ++ a, b ++ w.flatten, by simp only [e, hab, List.flatten_append, List.flatten_cons, List.append_assoc, List.cons_append]⟩
  have hu : dailyUnique ((q :: qs).map String.toList) = true := by
    unfold dailyUnique
    simp only [Bool.and_eq_true]
    exact ⟨⟨field 'Y' hY, field 'm' hm⟩, field 'd' hd⟩
  obtain ⟨d, es, js, cat', h1, h2, h3, h4, h5, h6, _⟩ := c150_outputs (ops := ops) hsub hempty hpat hu hs he
  refine ⟨d, es, js, cat', h1, h2, h6, ?_⟩
  -- days of operations with equal names are equal
  have hinj : ∀ i ∈ ops, ∀ i' ∈ ops, ∀ days days' D D' o o', IsDays start stop ((monthOf start) + i) days →
      IsDays start stop ((monthOf start) + i') days' → D ∈ days → D' ∈ days' → IsOutput (q :: qs) D o → IsOutput (q :: qs) D' o' →
      o.name = o'.name → D = D' := by
    intro i hi i' hi' days days' D D' o o' g g' hD hD' ho ho' heq
    have hval : ∀ i ∈ ops, ∀ days D, IsDays start stop ((monthOf start) + i) days → D ∈ days →
        0 ≤ dayStart D ∧ (dateOf (dayStart D)).year < 10000 := by
      intro i hi days D g hD
      have a := ((g.mem D).1 hD).1
      have hnn : 0 ≤ dayStart D := le_trans (monthStart_nonneg _) a.1
      refine ⟨hnn, ?_⟩
      have h1 := (month_unique hnn).2 a
      have h2 := hlate i hi
      have h3 := (dateOf_valid (dayStart D)).1
      have h4 := (dateOf_valid (dayStart D)).2.1
      rw [show monthOf (dayStart D) = 12 * (dateOf (dayStart D)).year + (dateOf (dayStart D)).month - 1 from rfl] at h1
      omega
    obtain ⟨v1, v2⟩ := hval i hi days D g hD
    obtain ⟨v1', v2'⟩ := hval i' hi' days' D' g' hD'
    have hmem : ∀ c, (∃ r ∈ q :: qs, HasField c r.toList) → ∃ r ∈ q.toList :: qs.map String.toList, HasField c r := by
      rintro c ⟨r, hr, hc⟩
      exact ⟨r.toList, by simpa using List.mem_map_of_mem (f := String.toList) hr, hc⟩
    have hdate : dateOf (dayStart D) = dateOf (dayStart D') := by
      by_contra hne
      refine c16_names_differ_partial (p := q.toList) (ps := qs.map String.toList) ?_ (hmem 'Y' hY) (hmem 'm' hm) (hmem 'd' hd)
        (t := ⟨dateOf (dayStart D), 0, 0, 0⟩) (t' := ⟨dateOf (dayStart D'), 0, 0, 0⟩) (dateOf_valid _) (dateOf_valid _) v2 v2' hne ?_
      · intro r hr
        obtain ⟨r', hr', rfl⟩ := List.mem_map.1 hr
        exact habs r' hr'
      · have a := ho.1
        have b := ho'.1
        rw [← heq] at b
        rw [List.map_cons] at a b
        rw [a, b]
    -- a date determines its midnight
    have hnum : ∀ E : Int, 0 ≤ dayStart E → midnight (dateOf (dayStart E)) = dayStart E := by
      intro E hE
      have hmod := dayStart_mod E
      generalize dayStart E = x at *
      unfold midnight dateOf
      rw [(ofNumber_spec _).2]
      have hd : (dayUs : Int) = 86400000000 := rfl
      rw [hd]
      omega
    have : dayStart D = dayStart D' := by rw [← hnum D v1, ← hnum D' v1', hdate]
    by_contra hne
    rcases lt_or_gt_of_ne hne with h | h
    · exact absurd (dayStart_lt.2 h) (by omega)
    · exact absurd (dayStart_lt.2 h) (by omega)
  rw [List.forall₂_iff_get] at h3 ⊢
  refine ⟨h3.1, fun k hk hk' days hdays => ?_⟩
  have hf := h3.2 k hk hk' days hdays
  rw [List.forall₂_iff_get] at hf ⊢
  refine ⟨hf.1, fun m hm hm' => ?_⟩
  obtain ⟨e, o, e1, e2, e3⟩ := hf.2 m hm hm'
  refine ⟨e, e1, ?_⟩
  obtain ⟨i', hi', days', D', g1, g2, g3⟩ := h5 e (List.mem_of_getElem? e1)
  have := hinj _ (List.get_mem ops ⟨k, hk⟩) i' hi' days days' _ D' o e hdays g1 (List.get_mem days ⟨m, hm⟩) g2 e2 g3 e3.symm
  rw [this]
  exact g3

/-- **C150.** Patterns without year, month or day are refused, whatever the catalogue. -/
theorem c150_refused {start stop : Int} {p : List String} {d si : Int} {st : AnnualBatch.OutState} (h : dailyUnique (p.map String.toList) = false) {i : Nat} {ops : List Nat} :
    outputLoop start stop p d si st (i :: ops) = .error .runtimeError := by
  have : outputEntries start stop p i = .error .runtimeError := by
    unfold outputEntries
    rw [if_neg (by simp [h])]
  unfold outputLoop
  rw [this]
  rfl

/-- **C150.** Outputs are not added to a data subset which has files: the operations are refused. -/
theorem c150_existing {name : String} {si : Int} {cat : Catalogue} {start stop : Int} {ops : List Nat} {s : Subset}
    (hsub : cat.datasubset name si = some s) (hs : s.entries ≠ []) : ∃ e, resolveOutput name si cat start stop ops = .error e := by
  unfold resolveOutput
  rw [hsub]
  cases cat.datasetindex name with
  | none => exact ⟨_, rfl⟩
  | some d =>
    dsimp only
    rw [if_pos (List.length_pos_iff.2 hs)]
    exact ⟨_, rfl⟩

/-! ### Cases which meet the hypotheses -/

/-- Outputs of the months of a period from 1 January 1850 on: hypotheses are met. -/
example (ops : List Nat) (h : ∀ i ∈ ops, (monthOf (monthStart 22200) + i) / 12 < 10000) (stop : Int) (he : stop % secUs = 0) :=
  c150_own_file_partial (name := "out") (si := 0) (cat := exampleOutputs) (start := monthStart 22200) (stop := stop) (ops := ops)
    (q := "%Y/") (qs := ["out_%Y%m%d.nc"]) rfl rfl rfl (by decide) ⟨"%Y/", by simp, [], ['/'], by decide⟩
    ⟨"out_%Y%m%d.nc", by simp, "out_%Y".toList, "%d.nc".toList, by decide⟩ ⟨"out_%Y%m%d.nc", by simp, "out_%Y%m".toList, ".nc".toList, by decide⟩
    (arith_seconds (monthStart_mod _)).1 he h

example : dailyUnique (["%Y/", "out_%Y%m%d.nc"].map String.toList) = true := by decide

/-- A data set of daily files with one file, at 1 h of the first day of a month. -/
def exampleInputs (y : Nat) : Catalogue :=
  { datasets := [{ name := "in", path := "/in", subsets := [{ patterns := some ["%Y/", "in_%Y%m%d.nc"], entries := [⟨"in.nc", some (monthStart y + 3600 * secUs)⟩] }] }] }

example (y : Nat) (start stop : Int) (ops : List Nat) :=
  c150_existing (name := "in") (si := 0) (cat := exampleInputs y) (start := start) (stop := stop) (ops := ops) rfl (by simp)

theorem month_long (y : Nat) : monthStart y + 28 * 86400000000 ≤ monthStart (y + 1) := monthStart_gap y

theorem monthOf_monthStart (o : Nat) : monthOf (monthStart o) = o := by
  have := ord_monthStart o
  rw [ord_monthOf] at this
  exact_mod_cast this

theorem arith_days (E Y Z D : Int) (e : E % 86400000000 = 0) (h : Y % 86400000000 = 0) (hz : Y + 28 * 86400000000 ≤ Z) :
    (D ∈ [(Y - E) / 86400000000, (Y - E) / 86400000000 + 1, (Y - E) / 86400000000 + 2]) ↔
      (Y ≤ E + D * 86400000000 ∧ E + D * 86400000000 < Z) ∧ Y < E + (D + 1) * 86400000000 ∧ E + D * 86400000000 ≤ Y + 2 * 86400000000 := by
  simp only [List.mem_cons, List.not_mem_nil, or_false]
  omega

/-- **C149, negative result.** Three days of a month with a file for the first only, where missing data is not allowed: no error, the other days
are given as missing.  (Only months without any file are found.) -/
theorem c149_missing_day_violated (y : Nat) :
    findReferences { datasetname := "in", subsetindex := 0, missingData := .notAllowed } [false] (exampleInputs y) (monthStart y) (monthStart y + 2 * dayUs) =
      .ok ([[0, 0, 0, 0, 0, -1, 0, 0, -1]], [false]) := by
  have hm := monthStart_mod y
  have hl := month_long y
  have hnn := monthStart_nonneg y
  have hd : (dayUs : Int) = 86400000000 := rfl
  have hsu : (secUs : Int) = 1000000 := rfl
  have hstop : (monthStart y + 2 * dayUs) % secUs = 0 := by rw [hd, hsu]; omega
  have hys : monthOf (monthStart y + 2 * dayUs) = y := by
    rw [month_unique (by rw [hd]; omega), hd]
    omega
  have hgood : GoodTimes [⟨"in.nc", some (monthStart y + 3600 * secUs)⟩] := by
    intro e he
    rw [List.mem_singleton] at he
    subst he
    exact ⟨_, rfl, by rw [hsu]; omega, by rw [hsu]; omega⟩
  obtain ⟨refs, d, r1, r2, r3, r4⟩ := c149_inputs (inp := { datasetname := "in", subsetindex := 0, missingData := .notAllowed }) (skip := [false])
    (cat := exampleInputs y) (start := monthStart y) (stop := monthStart y + 2 * dayUs) (p := ["%Y/", "in_%Y%m%d.nc"]) rfl rfl
    ⟨[], "/in_%Y%m%d.nc".toList, by decide⟩ ⟨"%Y/in_%Y".toList, "%d.nc".toList, by decide⟩ hgood (arith_seconds hm).1 hstop (by rw [hd]; omega) (by rw [hys, monthOf_monthStart])
    (by rw [hys, monthOf_monthStart]; simp)
  have hd0 : d = 0 := by
    have : (exampleInputs y).datasetindex "in" = some 0 := rfl
    rw [this] at r1
    injection r1 with r1
    exact r1.symm
  subst hd0
  rw [monthOf_monthStart] at r3
  obtain ⟨r, rfl⟩ : ∃ r, refs = [r] := by
    match refs, r2 with
    | [r], _ => exact ⟨r, rfl⟩
  have hdays : IsDays (monthStart y) (monthStart y + 2 * dayUs) (y + 0)
      [(monthStart y - epoch) / 86400000000, (monthStart y - epoch) / 86400000000 + 1, (monthStart y - epoch) / 86400000000 + 2] := by
    refine ⟨by simp, fun D => ?_⟩
    rw [dayStart_eq, dayStart_eq, hd]
    exact arith_days epoch (monthStart y) (monthStart (y + 1)) D epoch_mod' hm hl
  obtain ⟨slots, s1, s2⟩ := (r3 0 r rfl _ hdays).1 (Or.inl ⟨_, List.mem_singleton_self _, _, rfl, by rw [hsu, Nat.add_zero]; omega⟩)
  have hfile : ∀ D j, FileOn [⟨"in.nc", some (monthStart y + 3600 * secUs)⟩] D j ↔ j = 0 ∧ D = (monthStart y - epoch) / 86400000000 := by
    intro D j
    constructor
    · rintro ⟨e, t, h1, h2, h3⟩
      cases j with
      | succ j => simp at h1
      | zero =>
        simp at h1
        subst h1
        injection h2 with h2
        rw [dayStart_eq, dayStart_eq, ← h2, hsu] at h3
        exact ⟨rfl, (arith_file epoch (monthStart y) D epoch_mod' hm).1 h3⟩
    · rintro ⟨rfl, hD⟩
      refine ⟨_, _, rfl, rfl, ?_⟩
      rw [dayStart_eq, dayStart_eq, hsu]
      exact (arith_file epoch (monthStart y) D epoch_mod' hm).2 hD
  have hslot : ∀ D v, Slot [⟨"in.nc", some (monthStart y + 3600 * secUs)⟩] D v → v = if D = (monthStart y - epoch) / 86400000000 then 0 else -1 := by
    rintro D v (⟨h1, h2⟩ | ⟨j, h1, h2, _⟩)
    · rw [if_neg (fun hD => h2 0 ((hfile D 0).2 ⟨rfl, hD⟩)), h1]
    · have := (hfile D j).1 h2
      rw [if_pos this.2, h1, this.1]
      rfl
  have hslots : slots = [0, -1, -1] := by
    generalize (monthStart y - epoch) / 86400000000 = D0 at s2 hslot
    match slots, s2 with
    | [a, b, c], .cons h1 (.cons h2 (.cons h3 .nil)) =>
      have a1 := hslot _ _ h1
      have a2 := hslot _ _ h2
      have a3 := hslot _ _ h3
      rw [if_pos rfl] at a1
      rw [if_neg (by omega)] at a2 a3
      rw [a1, a2, a3]
  have hr : r = [0, 0, 0, 0, 0, -1, 0, 0, -1] := by rw [s1, hslots]; rfl
  rw [hr] at r4
  rcases r4 with h | h
  · exact h.1
  · obtain ⟨r', hr', h0⟩ := h.2
    rw [List.mem_singleton] at hr'
    rw [hr'] at h0
    cases h0

/-- Hypotheses of the theorems on files found by name, for a period in one month which begins at midnight, or at noon. -/
example (y : Nat) (start : Int) (h : start = monthStart y ∨ start = monthStart y + 43200 * secUs) :
    start % secUs = 0 ∧ (monthStart y + 2 * dayUs) % secUs = 0 ∧ 0 ≤ start ∧ start ≤ monthStart y + 2 * dayUs ∧
    exampleByName.datasubset "in" 0 = some { patterns := some ["in.nc"], entries := [⟨"in.nc", none⟩] } ∧
    [false].length = monthOf (monthStart y + 2 * dayUs) - (monthOf start) + 1 := by
  have hm := monthStart_mod y
  have hl := month_long y
  have hnn := monthStart_nonneg y
  have hd : (dayUs : Int) = 86400000000 := rfl
  have hsu : (secUs : Int) = 1000000 := rfl
  rw [hsu] at h
  have hys : monthOf (monthStart y + 2 * dayUs) = y := by
    rw [month_unique (by rw [hd]; omega), hd]
    omega
  have hy0 : (monthOf start) = y := by
    rw [month_unique (by omega)]
    omega
  rw [hys, hy0, hd, hsu]
  refine ⟨by omega, by omega, by omega, by omega, rfl, by simp⟩

end Verif.Eustace.MonthlyBatch
